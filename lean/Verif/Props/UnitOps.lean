import Verif.Lemmas.UnitOps
import Verif.Lemmas.Invariant
import Mathlib.Tactic.FieldSimp
import Mathlib.Tactic.Ring

/-!
# Unit operations of the library (C47, C48)
-/

namespace Sloth.Lib
open Sloth PyM Spec

section
variable {K : Type} [Field K] [LinearOrder K]

/-- Every equation of the model has the value zero. -/
def Spec.Solves (I : Interp K) (w : World) (m : MRef) (ρ : Atom → K) : Prop :=
  ∀ mo, w.ms[m]? = some mo → ∀ p ∈ mo.eqns, ∃ eo nd, w.es[p.2]? = some eo ∧ eo.expr = some nd ∧ nd.sym.expr.eval I ρ = some 0

/-- The assignment gives every specified quantity of the model its value. -/
def Spec.Fits (w : World) (m : MRef) (ρ : Atom → K) : Prop :=
  ∀ mo, w.ms[m]? = some mo → ∀ a r q, dget mo.attrs a = some (.qty r) → w.qs[r]? = some q → q.isSpecified = true → ρ (.v q.name) = (q.value : K)

variable {I : Interp K} {w : World} {m : MRef} {n : String} {b : Body} {S : List String} {E : List (String × AExpr)}

theorem St.fits (h : St I w m n b S E) {ρ : Atom → K} (hρ : Spec.Fits w m ρ) : Agrees w m n S ρ := by
  rintro a ha q ⟨mo, r, h1, h2, h3⟩ hs
  obtain ⟨mo', g1, -, -, -, g5, -⟩ := h.obj
  rw [h1] at g1; cases g1
  obtain ⟨r', q', k1, k2, k3, -⟩ := g5 a ha
  rw [h2] at k1; cases k1
  rw [h3] at k2; cases k2
  rw [← k3]; exact hρ mo h1 a r q h2 h3 hs

theorem St.solves (h : St I w m n b S E) {ρ : Atom → K} (hρ : Agrees w m n S ρ) :
    Spec.Solves I w m ρ ↔ ∀ x ∈ E, Spec.aval I (fun a => ρ (.v (a ++ "_" ++ n))) x.2 = some 0 := by
  obtain ⟨mo, h1, -, -, -, -, h6⟩ := h.obj
  have : Spec.Solves I w m ρ ↔ ∀ p ∈ mo.eqns, ∃ eo nd, w.es[p.2]? = some eo ∧ eo.expr = some nd ∧ nd.sym.expr.eval I ρ = some 0 :=
    ⟨fun hh => hh mo h1, fun hh mo' h' => by rw [h1] at h'; cases h'; exact hh⟩
  rw [this]
  clear this h1 h
  generalize mo.eqns = l at h6
  induction h6 with
  | nil => simp
  | cons a _ ih =>
    simp only [List.mem_cons, forall_eq_or_imp]
    obtain ⟨-, eo, nd, g1, g2, g3⟩ := a
    rw [← g3 ρ hρ]
    refine and_congr ⟨?_, fun hh => ⟨eo, nd, g1, g2, hh⟩⟩ ih
    rintro ⟨eo', nd', k1, k2, k3⟩
    rw [g1] at k1; cases k1
    rw [g2] at k2; cases k2
    exact k3

theorem newModel_ok (n d : String) (b : Body) {w : World} (hw : Reachable w) :
    newModel n d b none w = (.ok w.ms.length, { w with ms := w.ms ++ [{ name := n, description := d, body := b, ports := 0 }] }) := by
  obtain ⟨ops, rfl⟩ := hw
  obtain ⟨p, hp, -⟩ := (history_le ops World.init).pe 0 _ rfl
  unfold newModel
  rw [PyM.bind_of_ok (getP_of (r := (none : Option PRef).getD 0) hp)]
  rfl

theorem St.start (n d : String) (b : Body) (w : World) :
    St I { w with ms := w.ms ++ [{ name := n, description := d, body := b, ports := 0 }] } w.ms.length n b [] [] :=
  ⟨⟨{ name := n, description := d, body := b, ports := 0 }, by simp, rfl, rfl, rfl, by simp, .nil⟩, by simp⟩

theorem newUnit_ok {k : Kind} {n d : String} {v : View} {w w1 : World} (hw : Reachable w)
    (h : each (k.init v) (Cmd.run w.ms.length) { w with ms := w.ms ++ [{ name := n, description := d, body := { eqns := k.eqs v }, ports := 0 }] } = (.ok (), w1)) :
    newUnit k n d (some v) w = (.ok w.ms.length, w1) := by
  simp only [newUnit]
  rw [PyM.bind_of_ok (newModel_ok n d _ hw), PyM.bind_of_ok h]
  rfl

theorem St.call {l : List Cmd} (h : St I w m n { eqns := l } S E) {w' : World} (hr : each l (Cmd.run m) w = (.ok (), w')) :
    Model.call m w = (.ok (), w') := by
  obtain ⟨mo, h1, h2, h3, h4, -⟩ := h.obj
  unfold Model.call
  rw [PyM.bind_of_ok (getM_of h1), h3]
  simp only [each_nil]
  show (getM m >>= fun mo' => PyM.when (!mo'.inlets.isEmpty) (totalizeInlets m) >>= fun _ => each mo'.body.eqns (Cmd.run m)) w = _
  rw [PyM.bind_of_ok (getM_of h1), h4, h3]
  exact hr
end

/-! ## Pump -/

/-- The quantities of a pump. -/
def Spec.pumpAttrs (v : View) : List String :=
  ["ndot_in", "ndot_out", "mdot_in", "mdot_out", "H_in", "H_out", "P_in", "P_out", "T_in", "T_out", "Delta_P"] ++
  (if v.count ≥ 2 then v.names.flatMap fun p => ["z_" ++ p ++ "_in", "w_" ++ p ++ "_in", "z_" ++ p ++ "_out", "w_" ++ p ++ "_out"] else [])

section
variable {K : Type} [Field K] [LinearOrder K]

/-- What the phases keep. -/
def Spec.PhasesKept (X : String → K) (l : List String) : Prop :=
  ∀ p ∈ l, X ("z_" ++ p ++ "_out") = X ("z_" ++ p ++ "_in") ∧ X ("w_" ++ p ++ "_out") = X ("w_" ++ p ++ "_in")

theorem pairs_solved {I : Interp K} {X : String → K} {c c' : String} {l : List String} :
    (∀ x ∈ l.flatMap (pairEqs c c'), Spec.aval I X x.2 = some 0) ↔ Spec.PhasesKept X l := by
  simp only [List.mem_flatMap, forall_exists_index, and_imp, Spec.PhasesKept]
  refine ⟨fun h p hp => ?_, fun h x p hp hx => ?_⟩
  · have h1 := h _ p hp (List.mem_cons_self)
    have h2 := h _ p hp (List.mem_cons_of_mem _ List.mem_cons_self)
    simp only [Spec.aval, q, Spec.opVal, Option.bind_eq_bind, Option.bind_some, Option.some.injEq, sub_eq_zero] at h1 h2
    exact ⟨h1, h2⟩
  · simp only [pairEqs, List.mem_cons, List.not_mem_nil, or_false] at hx
    rcases hx with rfl | rfl
    · simpa [Spec.aval, q, Spec.opVal, sub_eq_zero, zOut, zIn] using (h p hp).1
    · simpa [Spec.aval, q, Spec.opVal, sub_eq_zero, wOut, wIn] using (h p hp).2

/-- `if number_of_phases >= 2` declarations of fractions. -/
theorem St.ifFracs {I : Interp K} {w : World} {m : MRef} {n : String} {b : Body} {S : List String} {E : List (String × AExpr)}
    (h : St I w m n b S E) (v : View) (hn : v.names.Nodup) (hi : ∀ p ∈ v.names, identTail p = true) (hS : ∀ a ∈ S, isFrac a = false) :
    ∃ w', each (ifPhases v Lib.fracVars) (Cmd.run m) w = (.ok (), w') ∧
      St I w' m n b (S ++ if v.count ≥ 2 then v.names.flatMap fracs else []) E ∧
      (Unset w m S → Unset w' m (S ++ if v.count ≥ 2 then v.names.flatMap fracs else [])) := by
  unfold ifPhases
  split
  · exact h.allFracs hn hi fun p _ a ha hc => by
      have := isFrac_of_mem ha
      rw [hS a hc] at this; cases this
  · exact ⟨w, rfl, by simpa using h, by simpa using id⟩

/-- `if number_of_phases >= 2` equations of the phases. -/
theorem St.ifPairs {I : Interp K} {w : World} {m : MRef} {n : String} {b : Body} {S : List String} {E : List (String × AExpr)}
    (h : St I w m n b S E) (v : View) (hn : v.names.Nodup) (hS : v.count ≥ 2 → ∀ p ∈ v.names, ∀ a ∈ fracs p, a ∈ S)
    (hE : ∀ k ∈ E.map Prod.fst, isPhaseKey k = false) :
    ∃ w', each (ifPhases v phaseEqs) (Cmd.run m) w = (.ok (), w') ∧
      St I w' m n b S (E ++ if v.count ≥ 2 then v.names.flatMap (pairEqs "molar_fraction_conservation_for_" "mass_fraction_conservation_for_") else []) := by
  have hpk : ∀ c ∈ phaseKeys, ∀ p, isPhaseKey (c ++ p) = true := by
    intro c hc p
    simp only [isPhaseKey, List.any_eq_true]
    exact ⟨c, hc, by rw [String.toList_append, List.isPrefixOf_iff_prefix]; exact List.prefix_append _ _⟩
  unfold ifPhases
  split
  · rename_i hc
    obtain ⟨w', r, s, -⟩ := h.pairs (c := "molar_fraction_conservation_for_") (c' := "mass_fraction_conservation_for_") (by decide) (by decide)
      (by
        intro p p' he
        have := congrArg (fun s => s.toList[1]?) he
        simp [String.toList_append] at this)
      (fun p => "Molar conservation for " ++ p ++ " phase") (fun p => "Mass conservation for " ++ p ++ " phase") hn (hS hc) (by
        intro p _
        refine ⟨fun hc => ?_, fun hc => ?_⟩
        · have := hE _ hc; rw [hpk _ (by decide)] at this; cases this
        · have := hE _ hc; rw [hpk _ (by decide)] at this; cases this)
    exact ⟨w', r, s⟩
  · exact ⟨w, rfl, by simpa using h⟩

theorem forall_mem_append_if {α : Type} {P : α → Prop} {c : Prop} [Decidable c] (l t : List α) :
    (∀ x ∈ l ++ (if c then t else []), P x) ↔ (∀ x ∈ l, P x) ∧ (c → ∀ x ∈ t, P x) := by
  rw [List.forall_mem_append]
  split
  · rename_i h; simp [h]
  · rename_i h; simp [h]

theorem mem_ifFracs (C : List String) (v : View) : ∀ a ∈ C ++ (if v.count ≥ 2 then v.names.flatMap fracs else []), a ∈ C ∨ isFrac a = true := by
  intro a ha
  rcases List.mem_append.mp ha with ha | ha
  · exact Or.inl ha
  · right
    split at ha
    · obtain ⟨p, _, hp⟩ := List.mem_flatMap.mp ha
      exact isFrac_of_mem hp
    · cases ha

/-- C47 for pumps, with any property package whose phases have names that can stand in Python code, whatever values are given to the quantities
before the call: creating the pump and calling it succeed, and the solutions of its equations are exactly the assignments with the balances. -/
theorem pump_balances (I : Interp K) {w : World} (hw : Reachable w) (name description : String) (v : View) (hn : v.names.Nodup)
    (hi : ∀ p ∈ v.names, Spec.PhaseName p) (us : List (String × Rat)) (hu : ∀ p ∈ us, p.1 ∈ Spec.pumpAttrs v) :
    ∃ m w1 w2 w3, newUnit .pump name description (some v) w = (.ok m, w1) ∧ each us (fun p => setFloat m p.1 p.2) w1 = (.ok (), w2) ∧
      Model.call m w2 = (.ok (), w3) ∧ ∀ ρ : Atom → K, Spec.Fits w3 m ρ → ∀ X, X = (fun a => ρ (.v (a ++ "_" ++ name))) →
        (Spec.Solves I w3 m ρ ↔ X "ndot_in" = X "ndot_out" ∧ X "mdot_in" = X "mdot_out" ∧ X "H_in" * X "ndot_in" = X "H_out" * X "ndot_out" ∧
          X "P_out" = X "P_in" + X "Delta_P" ∧ X "T_out" = X "T_in" ∧ (v.count ≥ 2 → Spec.PhasesKept X v.names)) := by
  obtain ⟨wa, ra, sa, -, -⟩ := (St.start (I := I) name description { eqns := Kind.eqs v .pump } w).run (C := []) (K' := []) (l := pumpPorts)
    (by decide +kernel) (by simp) (by simp) (by simp)
  obtain ⟨wb, rb, sb, -⟩ := sa.ifFracs v hn (phaseNames hi) (by decide +kernel)
  have hnew : newUnit .pump name description (some v) w = (.ok w.ms.length, wb) := newUnit_ok hw (each_append_ok ra rb)
  obtain ⟨wc, rc, sc, -⟩ := St.sets (show St I wb _ _ _ _ [] from sb) hu
  obtain ⟨wd, rd, sd, -⟩ := sc.run (C := news pumpPorts) (K' := []) (l := pumpFixed) (by decide +kernel)
    (fun a ha => List.mem_append_left _ ha) (mem_ifFracs _ v) (by simp)
  obtain ⟨we, re, se⟩ := sd.ifPairs v hn (by
      intro hc p hp a ha
      rw [if_pos hc]
      simp only [List.mem_append]
      exact Or.inl (Or.inr (List.mem_flatMap.mpr ⟨p, hp, ha⟩))) (by decide +kernel)
  refine ⟨_, wb, wc, we, hnew, rc, sc.call (each_append_ok rd re), ?_⟩
  rintro ρ hρ X rfl
  rw [se.solves (se.fits hρ)]
  have hE : newEqs pumpFixed = [("molar_conservation", .bin .sub (q "ndot_in") (q "ndot_out")), ("mass_conservation", .bin .sub (q "mdot_in") (q "mdot_out")),
    ("isoenthalpy", .bin .sub (.bin .mul (q "H_in") (q "ndot_in")) (.bin .mul (q "H_out") (q "ndot_out"))),
    ("mechanical_equilibrium", .bin .sub (.bin .sub (q "P_out") (q "P_in")) (q "Delta_P")), ("energy_balance", .bin .sub (q "T_out") (q "T_in"))] := rfl
  simp only [hE, List.nil_append, forall_mem_append_if, pairs_solved, List.mem_cons, forall_eq_or_imp, List.not_mem_nil, false_implies, implies_true, and_true,
    Spec.aval, q, Spec.opVal, Option.bind_eq_bind, Option.bind_some, Option.some.injEq, sub_eq_zero, and_assoc, sub_eq_iff_eq_add, add_comm, zero_add]

/-! ## Mixer -/

theorem setFloat_keeps (m : MRef) (a : String) (x : Rat) (w : World) : (setFloat m a x w).2.ms = w.ms ∧ (setFloat m a x w).2.es = w.es := by
  simp only [setFloat, Cmd.run]
  rw [PyM.bind_run]
  simp only [lookupM]
  cases w.lookup m { attr := a } with
  | error e => exact ⟨rfl, rfl⟩
  | ok p =>
    have : AVal.eval m (.float x) w = (.ok (.float x), w) := rfl
    simp only [PyM.bind_of_ok this]
    rcases setValueM_run p.1 (.float x) none w with ⟨e, he⟩ | ⟨q, q', _, _, he⟩ <;> rw [he]
    · exact ⟨rfl, rfl⟩
    · exact ⟨rfl, rfl⟩

theorem sets_keep (m : MRef) (us : List (String × Rat)) (w : World) :
    (each us (fun p => setFloat m p.1 p.2) w).2.ms = w.ms ∧ (each us (fun p => setFloat m p.1 p.2) w).2.es = w.es := by
  induction us generalizing w with
  | nil => exact ⟨rfl, rfl⟩
  | cons p t ih =>
    rw [each_cons, PyM.bind_run]
    have h1 := setFloat_keeps m p.1 p.2 w
    cases h : setFloat m p.1 p.2 w with
    | mk r w1 =>
      rw [h] at h1
      cases r with
      | error e => exact h1
      | ok _ => exact ⟨(ih w1).1.trans h1.1, (ih w1).2.trans h1.2⟩

/-- What a mixer demands of the fractions. -/
def Spec.Mixed (X : String → K) (l : List String) : Prop :=
  (l.map fun p => X ("z_" ++ p ++ "_in")).sum = 1 ∧ (l.map fun p => X ("w_" ++ p ++ "_in")).sum = 1 ∧
  (l.map fun p => X ("z_" ++ p ++ "_out")).sum = 1 ∧ (l.map fun p => X ("w_" ++ p ++ "_out")).sum = 1

theorem St.ifSums {I : Interp K} {w : World} {m : MRef} {n : String} {b : Body} {S : List String} {E : List (String × AExpr)}
    (h : St I w m n b S E) (v : View) (hv : v.count ≥ 2 → v.names ≠ [] ∧ ∀ p ∈ v.names, ∀ a ∈ fracs p, a ∈ S)
    (hE : ∀ k ∈ E.map Prod.fst, k ∈ ["molar_conservation", "mass_conservation"]) :
    ∃ w', each (if v.count ≥ 2 then mixerSums v.names else []) (Cmd.run m) w = (.ok (), w') ∧
      St I w' m n b S (E ++ if v.count ≥ 2 then [("molar_frac_sum_in", sumExpr zIn v.names), ("mass_frac_sum_in", sumExpr wIn v.names),
        ("molar_frac_sum_out", sumExpr zOut v.names), ("mass_frac_sum_out", sumExpr wOut v.names)] else []) ∧ (Unset w m S → Unset w' m S) := by
  split
  · rename_i hc
    obtain ⟨h0, hr⟩ := hv hc
    have hE' : ∀ k, k ∉ ["molar_conservation", "mass_conservation"] → k ∉ E.map Prod.fst := fun k hk hc => hk (hE k hc)
    obtain ⟨w1, r1, s1, u1⟩ := h.sum (k := "molar_frac_sum_in") (d := "Molar fraction summation for input") isFrac_zIn h0
      (fun p hp => hr p hp _ (by simp [fracs])) (by decide) (hE' _ (by decide))
    obtain ⟨w2, r2, s2, u2⟩ := s1.sum (k := "mass_frac_sum_in") (d := "Mass fraction summation for input") isFrac_wIn h0
      (fun p hp => hr p hp _ (by simp [fracs])) (by decide) (by simpa using hE' _ (by decide))
    obtain ⟨w3, r3, s3, u3⟩ := s2.sum (k := "molar_frac_sum_out") (d := "Molar fraction summation for output") isFrac_zOut h0
      (fun p hp => hr p hp _ (by simp [fracs])) (by decide) (by simpa using hE' _ (by decide))
    obtain ⟨w4, r4, s4, u4⟩ := s3.sum (k := "mass_frac_sum_out") (d := "Mass fraction summation for output") isFrac_wOut h0
      (fun p hp => hr p hp _ (by simp [fracs])) (by decide) (by simpa using hE' _ (by decide))
    refine ⟨w4, ?_, by simpa using s4, fun hu => u4 (u3 (u2 (u1 hu)))⟩
    rw [mixerSums, each_cons, PyM.bind_of_ok r1, each_cons, PyM.bind_of_ok r2, each_cons, PyM.bind_of_ok r3, each_cons, PyM.bind_of_ok r4]
    rfl
  · exact ⟨w, rfl, by simpa using h, id⟩

theorem isPhaseKey_append {c : String} (hc : c ∈ phaseKeys) (p : String) : isPhaseKey (c ++ p) = true := by
  simp only [isPhaseKey, List.any_eq_true]
  exact ⟨c, hc, by rw [String.toList_append, List.isPrefixOf_iff_prefix]; exact List.prefix_append _ _⟩

theorem St.ifMixed {I : Interp K} {w : World} {m : MRef} {n : String} {b : Body} {S : List String} {E : List (String × AExpr)}
    (h : St I w m n b S E) (v : View) (hn : v.names.Nodup) (hS : v.names.length > 1 → ∀ p ∈ v.names, ∀ a ∈ fracs p, a ∈ S)
    (hE : ∀ k ∈ E.map Prod.fst, isPhaseKey k = false) :
    ∃ w', each (if v.names.length > 1 then v.names.dropLast.flatMap mixerPhase else []) (Cmd.run m) w = (.ok (), w') ∧
      St I w' m n b S (E ++ if v.names.length > 1 then v.names.dropLast.flatMap (pairEqs "molar_conservation_for_" "mass_conservation_for_") else []) ∧
      (Unset w m S → Unset w' m S) := by
  split
  · rename_i hc
    obtain ⟨w', r, s, u⟩ := h.pairs (c := "molar_conservation_for_") (c' := "mass_conservation_for_") (by decide) (by decide)
      (by
        intro p p' he
        have := congrArg (fun s => s.toList[1]?) he
        simp [String.toList_append] at this)
      (fun p => "Molar conservation for " ++ p ++ " phase") (fun p => "Mass conservation for " ++ p ++ " phase")
      (hn.sublist (List.dropLast_sublist _)) (fun p hp => hS hc p (List.dropLast_subset _ hp)) (by
        intro p _
        refine ⟨fun hc => ?_, fun hc => ?_⟩
        · have := hE _ hc; rw [isPhaseKey_append (by decide)] at this; cases this
        · have := hE _ hc; rw [isPhaseKey_append (by decide)] at this; cases this)
    exact ⟨w', r, s, u⟩
  · exact ⟨w, rfl, by simpa using h, id⟩

/-- C47 for mixers and splitters, with any property package whose phases have names that can stand in Python code and whose number of
phases is at least two only when there are two names: creating succeeds, the call changes nothing, and whatever values are set in between, the solutions
of the equations are exactly the assignments with the balances. -/
theorem mixer_balances (I : Interp K) {w : World} (hw : Reachable w) (name description : String) (v : View) (hn : v.names.Nodup)
    (hi : ∀ p ∈ v.names, Spec.PhaseName p) (hv : v.count ≥ 2 → v.names.length > 1) :
    ∃ m w1, newUnit .mixer name description (some v) w = (.ok m, w1) ∧ ∀ us : List (String × Rat), ∀ w2, w2 = (each us (fun p => setFloat m p.1 p.2) w1).2 →
      Model.call m w2 = (.ok (), w2) ∧ ∀ ρ : Atom → K, ∀ X, X = (fun a => ρ (.v (a ++ "_" ++ name))) →
        (Spec.Solves I w2 m ρ ↔ X "ndot_in" = X "ndot_out" ∧ X "mdot_in" = X "mdot_out" ∧ (v.count ≥ 2 → Spec.Mixed X v.names) ∧
          (v.names.length > 1 → Spec.PhasesKept X v.names.dropLast) ∧ X "T_out" = X "T_in" ∧ X "P_out" = X "P_in" ∧
          X "ndot_out" * X "H_out" = X "ndot_in" * X "H_in") := by
  have ha : ∃ w', each (if v.names.length > 1 then v.names.flatMap Lib.fracVars else []) (Cmd.run w.ms.length)
      { w with ms := w.ms ++ [{ name := name, description := description, body := { eqns := Kind.eqs v .mixer }, ports := 0 }] } = (.ok (), w') ∧
      St I w' w.ms.length name { eqns := Kind.eqs v .mixer } (if v.names.length > 1 then v.names.flatMap fracs else []) [] ∧
      Unset w' w.ms.length (if v.names.length > 1 then v.names.flatMap fracs else []) := by
    have h0 := St.start (I := I) name description { eqns := Kind.eqs v .mixer } w
    split
    · obtain ⟨w', r, s, u⟩ := h0.allFracs hn (phaseNames hi) (by simp)
      exact ⟨w', r, by simpa using s, by simpa using u (by simp [Unset])⟩
    · exact ⟨_, rfl, h0, by simp [Unset]⟩
  obtain ⟨wa, ra, sa, ua⟩ := ha
  have hfr : ∀ a ∈ (if v.names.length > 1 then v.names.flatMap fracs else []), isFrac a = true := by
    intro a ha
    split at ha
    · obtain ⟨p, _, hp⟩ := List.mem_flatMap.mp ha
      exact isFrac_of_mem hp
    · cases ha
  obtain ⟨wb, rb, sb, ub, -⟩ := sa.run (C := []) (K' := []) (l := mixerFluxes) (by decide +kernel) (by simp) (fun a ha => Or.inr (hfr a ha)) (by simp)
  have hin : v.names.length > 1 → ∀ p ∈ v.names, ∀ a ∈ fracs p, a ∈ (if v.names.length > 1 then v.names.flatMap fracs else []) ++ news mixerFluxes := by
    intro hc p hp a ha
    rw [if_pos hc]
    exact List.mem_append_left _ (List.mem_flatMap.mpr ⟨p, hp, ha⟩)
  obtain ⟨wc, rc, sc, uc⟩ := sb.ifSums v (fun hc => ⟨fun h0 => by
      have := hv hc
      rw [h0] at this; exact absurd this (by decide), hin (hv hc)⟩) (by decide +kernel)
  obtain ⟨wd, rd, sd, ud⟩ := sc.ifMixed v hn hin (by
    intro k hk
    simp only [List.nil_append, List.map_append, List.mem_append] at hk
    rcases hk with hk | hk
    · revert hk; revert k; decide +kernel
    · split at hk
      · simp only [List.map_cons, List.map_nil] at hk
        revert hk; revert k; decide +kernel
      · cases hk)
  obtain ⟨we, re, se, ue, -⟩ := sd.run (C := news mixerFluxes)
    (K' := ["molar_conservation", "mass_conservation", "molar_frac_sum_in", "mass_frac_sum_in", "molar_frac_sum_out", "mass_frac_sum_out"]) (l := mixerRest)
    (by decide +kernel) (fun a ha => List.mem_append_right _ ha) (by
      intro a ha
      rcases List.mem_append.mp ha with ha | ha
      · exact Or.inr (hfr a ha)
      · exact Or.inl ha) (by
      intro k hk
      simp only [List.nil_append, List.map_append, List.mem_append] at hk
      rcases hk with (hk | hk) | hk
      · left; revert hk; revert k; decide +kernel
      · left
        split at hk
        · simp only [List.map_cons, List.map_nil] at hk
          revert hk; revert k; decide +kernel
        · cases hk
      · right
        split at hk
        · obtain ⟨x, hx, rfl⟩ := List.mem_map.mp hk
          obtain ⟨p, _, hp⟩ := List.mem_flatMap.mp hx
          simp only [pairEqs, List.mem_cons, List.not_mem_nil, or_false] at hp
          rcases hp with rfl | rfl
          · exact isPhaseKey_append (by decide) p
          · exact isPhaseKey_append (by decide) p
        · cases hk)
  have hnew : newUnit .mixer name description (some v) w = (.ok w.ms.length, we) :=
    newUnit_ok hw (each_append_ok (each_append_ok (each_append_ok (each_append_ok ra rb) rc) rd) re)
  refine ⟨_, we, hnew, ?_⟩
  rintro us w2 rfl
  obtain ⟨k1, k2⟩ := sets_keep w.ms.length us we
  refine ⟨?_, ?_⟩
  · obtain ⟨mo, h1, h2, h3, h4, -⟩ := se.obj
    rw [← k1] at h1
    unfold Model.call
    rw [PyM.bind_of_ok (getM_of h1), h3]
    simp only [Kind.eqs, each_nil]
    show (getM w.ms.length >>= fun mo' => PyM.when (!mo'.inlets.isEmpty) (totalizeInlets w.ms.length) >>= fun _ => each mo'.body.eqns (Cmd.run w.ms.length)) _ = _
    rw [PyM.bind_of_ok (getM_of h1), h4, h3]
    rfl
  · rintro ρ X rfl
    have hsame : Spec.Solves I (each us (fun p => setFloat w.ms.length p.1 p.2) we).2 w.ms.length ρ ↔ Spec.Solves I we w.ms.length ρ := by
      simp only [Spec.Solves, k1, k2]
    rw [hsame, se.solves ((ue (ud (uc (ub ua)))).agrees name ρ)]
    have hE : newEqs mixerFluxes = [("molar_conservation", .bin .sub (q "ndot_in") (q "ndot_out")), ("mass_conservation", .bin .sub (q "mdot_in") (q "mdot_out"))] := rfl
    have hE' : newEqs mixerRest = [("thermal_equilibrium", .bin .sub (q "T_out") (q "T_in")), ("mechanical_equilibrium", .bin .sub (q "P_out") (q "P_in")),
      ("energy_balance", .bin .sub (.bin .mul (q "ndot_out") (q "H_out")) (.bin .mul (q "ndot_in") (q "H_in")))] := rfl
    have hsum : (v.count ≥ 2 → ∀ x ∈ [("molar_frac_sum_in", sumExpr zIn v.names), ("mass_frac_sum_in", sumExpr wIn v.names),
        ("molar_frac_sum_out", sumExpr zOut v.names), ("mass_frac_sum_out", sumExpr wOut v.names)],
        Spec.aval I (fun a => ρ (.v (a ++ "_" ++ name))) x.2 = some 0) ↔ (v.count ≥ 2 → Spec.Mixed (fun a => ρ (.v (a ++ "_" ++ name))) v.names) := by
      refine imp_congr_right fun hc => ?_
      have h0 : v.names ≠ [] := fun h0 => by
        have := hv hc
        rw [h0] at this; exact absurd this (by decide)
      have hz : ∀ x : K, -1 + x = 0 ↔ x = 1 := fun x => by
        rw [neg_add_eq_zero]; exact eq_comm
      simp only [List.mem_cons, forall_eq_or_imp, List.not_mem_nil, false_implies, implies_true, and_true, sumExpr_val isFrac_zIn h0, sumExpr_val isFrac_wIn h0,
        sumExpr_val isFrac_zOut h0, sumExpr_val isFrac_wOut h0, Option.some.injEq, hz, Spec.Mixed]
      rfl
    rw [List.nil_append, List.forall_mem_append, forall_mem_append_if, forall_mem_append_if, hsum, pairs_solved, hE, hE']
    simp only [List.mem_cons, forall_eq_or_imp, List.not_mem_nil, false_implies, implies_true, and_true,
      Spec.aval, q, Spec.opVal, Option.bind_eq_bind, Option.bind_some, Option.some.injEq, sub_eq_zero, and_assoc]

/-- With two phases or more, every phase is kept, the last one through the sums. -/
theorem mixed_last {X : String → K} {l : List String} (h : Spec.Mixed X l) (hp : Spec.PhasesKept X l.dropLast) : Spec.PhasesKept X l := by
  rcases List.eq_nil_or_concat l with rfl | ⟨t, p, rfl⟩
  · intro p hp; cases hp
  · rw [List.concat_eq_append] at h hp ⊢
    rw [List.dropLast_concat] at hp
    obtain ⟨h1, h2, h3, h4⟩ := h
    have key : ∀ f g : String → String, (∀ x ∈ t, X (f x) = X (g x)) → ((t ++ [p]).map fun p => X (f p)).sum = 1 → ((t ++ [p]).map fun p => X (g p)).sum = 1 →
        X (f p) = X (g p) := by
      intro f g hfg hf hg
      simp only [List.map_append, List.map_cons, List.map_nil, List.sum_append, List.sum_cons, List.sum_nil, add_zero] at hf hg
      have : (t.map fun p => X (f p)) = t.map fun p => X (g p) := List.map_congr_left hfg
      rw [this, ← hg] at hf
      exact add_left_cancel hf
    intro x hx
    rcases List.mem_append.mp hx with hx | hx
    · exact hp x hx
    · simp only [List.mem_singleton] at hx
      subst hx
      exact ⟨key (fun p => "z_" ++ p ++ "_out") (fun p => "z_" ++ p ++ "_in") (fun y hy => (hp y hy).1) h3 h1,
        key (fun p => "w_" ++ p ++ "_out") (fun p => "w_" ++ p ++ "_in") (fun y hy => (hp y hy).2) h4 h2⟩

/-! ## Valve -/

/-- C47 for valves with a property package of one phase of known density, whatever values are given to the quantities before the call: creating and
calling succeed and the solutions of the equations are exactly the assignments with the balances. -/
theorem valve_balances_partial [CharZero K] (I : Interp K) {w : World} (hw : Reachable w) (name description : String) (v : View) (hv : v.count < 2)
    {pn : String} {c : Chem} {rho : Rat} (hc : v.phases.getLast? = some (pn, c)) (hr : c.rho = some rho) (hr0 : rho ≠ 0)
    (us : List (String × Rat)) (hu : ∀ p ∈ us, p.1 ∈ ["ndot_in", "ndot_out", "mdot_in", "mdot_out", "Qdot_out", "H_in", "H_out", "P_in", "P_out",
      "T_in", "T_out", "Delta_P", "perc_open"]) :
    ∃ m w1 w2 w3, newUnit .valve name description (some v) w = (.ok m, w1) ∧ each us (fun p => setFloat m p.1 p.2) w1 = (.ok (), w2) ∧
      Model.call m w2 = (.ok (), w3) ∧ ∀ ρ : Atom → K, Spec.Fits w3 m ρ → ∀ X, X = (fun a => ρ (.v (a ++ "_" ++ name))) →
        (Spec.Solves I w3 m ρ ↔ X "ndot_in" = X "ndot_out" ∧ X "mdot_in" = X "mdot_out" ∧ X "H_in" * X "ndot_in" = X "H_out" * X "ndot_out" ∧
          X "P_out" + X "Delta_P" = X "P_in" ∧ X "T_out" = X "T_in" ∧ X "Qdot_out" * rho = X "perc_open" * X "mdot_out") := by
  have hnc : ¬ v.count ≥ 2 := not_le.mpr hv
  obtain ⟨wa, ra, sa, -, -⟩ := (St.start (I := I) name description { eqns := Kind.eqs v .valve } w).run (C := []) (K' := []) (l := valvePorts)
    (by decide +kernel) (by simp) (by simp) (by simp)
  have hnew : newUnit .valve name description (some v) w = (.ok w.ms.length, wa) :=
    newUnit_ok hw (by simp only [Kind.init, valveInit, ifPhases, if_neg hnc, List.append_nil]; exact ra)
  obtain ⟨wb, rb, sb, -⟩ := St.sets (show St I wa _ _ _ _ [] from sa) hu
  obtain ⟨wc, rc, sc, -⟩ := sb.run (C := news valvePorts) (K' := []) (l := valveFixed) (by decide +kernel) (fun a ha => ha) (fun a ha => Or.inl ha) (by simp)
  obtain ⟨wd, rd, sd, -, ⟨y, hy, hys⟩, -⟩ := sc.par (a := "mix_rho") (x := { name := "mix_rho", units := kgm3, description := "Density for the mixture of components", latex := "" })
    (by decide +kernel) (by decide) rfl (lib_units (by decide +kernel)) (by decide +kernel)
  obtain ⟨we, re, se, ke⟩ := sd.set (a := "mix_rho") (List.mem_append_right _ (by simp)) rho (Or.inr fun q' hq' => by rw [← hy.unique hq']; exact hys)
  have hrho : ∀ q', Holds we w.ms.length "mix_rho" q' → q'.value = rho ∧ q'.isSpecified = true := by
    intro q' hq'
    have := ke "mix_rho" (List.mem_append_right _ (by simp)) q' hq'
    rwa [if_pos rfl] at this
  have hsafe : ∀ e, AExpr.toPy we w.ms.length (.bin .sub (q "Qdot_out") (.bin .mul (q "perc_open") (.bin .div (q "mdot_out") (q "mix_rho")))) = .ok e → Safe e := by
    obtain ⟨qa, ha, -⟩ := se.holds (a := "Qdot_out") (by decide +kernel)
    obtain ⟨qb, hb, -⟩ := se.holds (a := "perc_open") (by decide +kernel)
    obtain ⟨qc, hc', -⟩ := se.holds (a := "mdot_out") (by decide +kernel)
    obtain ⟨qd, hd, -⟩ := se.holds (a := "mix_rho") (by decide +kernel)
    obtain ⟨v1, v2⟩ := hrho qd hd
    obtain ⟨_, ha⟩ := ha.lookup
    obtain ⟨_, hb⟩ := hb.lookup
    obtain ⟨_, hc'⟩ := hc'.lookup
    obtain ⟨_, hd⟩ := hd.lookup
    intro e he
    simp only [AExpr.toPy, q, ha, hb, hc', hd, ok_bind, Except.ok.injEq] at he
    subst he
    refine ⟨trivial, trivial, trivial, trivial, ?_⟩
    intro nd hnd
    simp only [PyExpr.build, Except.ok.injEq] at hnd
    subst hnd
    simp [Quantity.call, v2, SObj.num, Sym.ratEval, v1, hr0]
  obtain ⟨wf, rf, sf, -, kf⟩ := se.eqn (k := "vol_flux_balance") (desc := "Volumetric flux balance")
    (x := .bin .sub (q "Qdot_out") (.bin .mul (q "perc_open") (.bin .div (q "mdot_out") (q "mix_rho"))))
    (d := Spec.dimOf "Qdot_out") (by decide +kernel) (by decide +kernel) (by decide) (by decide +kernel) (Or.inr hsafe)
  have hmix : mixRho v = .setValue { attr := "mix_rho" } (.float rho) none := by
    simp [mixRho, if_neg hnc, View.star, hc, hr, floatArg]
  have hcall : Model.call w.ms.length wb = (.ok (), wf) := by
    refine sb.call ?_
    simp only [Kind.eqs, valveEqs, ifPhases, if_neg hnc, List.append_nil]
    refine each_append_ok rc ?_
    rw [each_cons]
    refine (PyM.bind_of_ok rd).trans ?_
    rw [each_cons, hmix]
    refine (PyM.bind_of_ok re).trans ?_
    rw [each_cons]
    refine (PyM.bind_of_ok rf).trans ?_
    rfl
  refine ⟨_, wa, wb, wf, hnew, rb, hcall, ?_⟩
  rintro ρ hρ X rfl
  have hag := sf.fits hρ
  rw [sf.solves hag]
  have hE : newEqs valveFixed = [("molar_conservation", .bin .sub (q "ndot_in") (q "ndot_out")), ("mass_conservation", .bin .sub (q "mdot_in") (q "mdot_out")),
    ("isoenthalpy", .bin .sub (.bin .mul (q "H_in") (q "ndot_in")) (.bin .mul (q "H_out") (q "ndot_out"))),
    ("mechanical_equilibrium", .bin .add (.bin .sub (q "P_out") (q "P_in")) (q "Delta_P")), ("energy_balance", .bin .sub (q "T_out") (q "T_in"))] := rfl
  have hX : ρ (.v ("mix_rho" ++ "_" ++ name)) = (rho : K) := by
    obtain ⟨qd, hd, -⟩ := sf.holds (a := "mix_rho") (by decide +kernel)
    obtain ⟨v1, v2⟩ := hrho qd (kf _ (by decide +kernel) qd hd)
    rw [hag "mix_rho" (by decide +kernel) qd hd v2, v1]
  have hr1 : (rho : K) ≠ 0 := by simpa using hr0
  have hp : ∀ a b c : K, a - b + c = 0 ↔ a + c = b := fun a b c => by
    rw [sub_add_eq_add_sub, sub_eq_zero]
  have hq : ∀ a b c : K, a - b * (c / rho) = 0 ↔ a * rho = b * c := fun a b c => by
    rw [sub_eq_zero, mul_div_assoc', eq_div_iff hr1]
  simp only [hE, List.nil_append, List.cons_append, List.mem_cons, forall_eq_or_imp, List.not_mem_nil, false_implies, implies_true, and_true,
    Spec.aval, q, Spec.opVal, Option.bind_eq_bind, Option.bind_some, Option.some.injEq, hX, if_neg hr1, hp, hq]
  simp only [sub_eq_zero]

/-! ## Heater -/

/-- C47 for heaters and coolers with a property package of one phase of known heat capacity, whatever values are given to the quantities before the
call (no zero output flux or heat capacity): creating and calling succeed and the solutions of the equations are exactly the assignments with the
balances. -/
theorem heater_balances_partial (I : Interp K) {w : World} (hw : Reachable w) (name description : String) (v : View) (hv : v.count < 2)
    {pn : String} {c : Chem} {cp : Rat} (hc : v.phases.getLast? = some (pn, c)) (hr : c.Cp = some cp) (hr0 : cp ≠ 0)
    (us : List (String × Rat)) (hu : ∀ p ∈ us, p.1 ∈ ["ndot_in", "ndot_out", "mdot_in", "mdot_out", "P_in", "P_out", "Delta_P", "H_in", "H_out", "Q",
      "T_in", "T_out", "cp_mix"]) (h1 : ("mdot_out", 0) ∉ us) (h2 : ("cp_mix", 0) ∉ us) :
    ∃ m w1 w2 w3, newUnit .heater name description (some v) w = (.ok m, w1) ∧ each us (fun p => setFloat m p.1 p.2) w1 = (.ok (), w2) ∧
      Model.call m w2 = (.ok (), w3) ∧ ∀ ρ : Atom → K, Spec.Fits w3 m ρ → ∀ X, X = (fun a => ρ (.v (a ++ "_" ++ name))) →
        (Spec.Solves I w3 m ρ ↔ X "ndot_in" = X "ndot_out" ∧ X "mdot_in" = X "mdot_out" ∧ X "P_out" + X "Delta_P" = X "P_in" ∧
          X "ndot_out" * X "H_out" = X "ndot_in" * X "H_in" + X "Q" ∧
          X "mdot_out" * X "cp_mix" ≠ 0 ∧ X "mdot_out" * X "cp_mix" * (X "T_out" - X "T_in") = X "Q") := by
  have hnc : ¬ v.count ≥ 2 := not_le.mpr hv
  obtain ⟨wa, ra, sa, ua, -⟩ := (St.start (I := I) name description { eqns := Kind.eqs v .heater } w).run (C := []) (K' := []) (l := heaterPorts)
    (by decide +kernel) (by simp) (by simp) (by simp)
  have ua := ua (by simp [Unset])
  have hmix : cpMix v = .setValue { attr := "cp_mix" } (.float cp) none := by
    simp [cpMix, if_neg hnc, View.star, hc, hr, floatArg]
  obtain ⟨wb, rb, sb, kb⟩ := St.set (show St I wa _ _ _ _ [] from sa) (a := "cp_mix") (by decide +kernel) cp (Or.inl rfl)
  have hnew : newUnit .heater name description (some v) w = (.ok w.ms.length, wb) := by
    refine newUnit_ok hw ?_
    simp only [Kind.init, heaterInit, ifPhases, if_neg hnc, List.nil_append]
    refine each_append_ok ra ?_
    rw [each_cons, hmix]
    refine (PyM.bind_of_ok rb).trans ?_
    rfl
  obtain ⟨wc, rc, sc, kc⟩ := sb.sets hu
  obtain ⟨wd, rd, sd, -, kd⟩ := sc.run (C := news heaterPorts) (K' := []) (l := heaterFixed) (by decide +kernel) (fun a ha => ha) (fun a ha => Or.inl ha) (by simp)
  have hm : ∀ q', Holds wd w.ms.length "mdot_out" q' → q'.isSpecified = true → q'.value ≠ 0 := by
    intro q' hq' hs h0
    have hh := kc _ (by decide +kernel) q' (kd _ (by decide +kernel) q' hq')
    split at hh
    · rw [h0] at hh; exact h1 hh.1
    · have := kb _ (by decide +kernel) q' hh
      rw [if_neg (by decide)] at this
      rw [ua _ (by decide +kernel) q' this] at hs; cases hs
  have hcp : ∀ q', Holds wd w.ms.length "cp_mix" q' → q'.value ≠ 0 := by
    intro q' hq' h0
    have hh := kc _ (by decide +kernel) q' (kd _ (by decide +kernel) q' hq')
    split at hh
    · rw [h0] at hh; exact h2 hh.1
    · have := kb _ (by decide +kernel) q' hh
      rw [if_pos rfl, h0] at this
      exact hr0 this.1.symm
  have hsafe : ∀ e, AExpr.toPy wd w.ms.length (.bin .sub (.bin .sub (q "T_out") (q "T_in")) (.bin .div (q "Q") (.bin .mul (q "mdot_out") (q "cp_mix")))) = .ok e → Safe e := by
    obtain ⟨qa, ha, -⟩ := sd.holds (a := "T_out") (by decide +kernel)
    obtain ⟨qb, hb, -⟩ := sd.holds (a := "T_in") (by decide +kernel)
    obtain ⟨qc, hc', -⟩ := sd.holds (a := "Q") (by decide +kernel)
    obtain ⟨qd, hd, -⟩ := sd.holds (a := "mdot_out") (by decide +kernel)
    obtain ⟨qe, he, -⟩ := sd.holds (a := "cp_mix") (by decide +kernel)
    have v1 := hm qd hd
    have v2 := hcp qe he
    obtain ⟨_, ha⟩ := ha.lookup
    obtain ⟨_, hb⟩ := hb.lookup
    obtain ⟨_, hc'⟩ := hc'.lookup
    obtain ⟨_, hd⟩ := hd.lookup
    obtain ⟨_, he⟩ := he.lookup
    intro e hx
    simp only [AExpr.toPy, q, ha, hb, hc', hd, he, ok_bind, Except.ok.injEq] at hx
    subst hx
    refine ⟨⟨trivial, trivial⟩, trivial, ⟨trivial, trivial⟩, ?_⟩
    intro nd hnd
    simp only [PyExpr.build, ok_bind, ENode.op, ENode.mul, Except.ok.injEq] at hnd
    subst hnd
    rintro ⟨p1, p2⟩
    simp only [SObj.mul, Bool.and_eq_true, Quantity.call] at p1 p2
    cases s1 : qd.isSpecified with
    | false => simp [s1] at p1
    | true =>
      cases s2 : qe.isSpecified with
      | false => simp [s2] at p1
      | true =>
        simp [s1, s2, SObj.num, Sym.ratEval] at p2
        exact p2.elim (v1 s1) v2
  obtain ⟨we, re, se, -, -⟩ := sd.eqn (k := "temperature_balance") (desc := "Temperature balance")
    (x := .bin .sub (.bin .sub (q "T_out") (q "T_in")) (.bin .div (q "Q") (.bin .mul (q "mdot_out") (q "cp_mix"))))
    (d := Spec.dimOf "T_out") (by decide +kernel) (by decide +kernel) (by decide) (by decide +kernel) (Or.inr hsafe)
  have hcall : Model.call w.ms.length wc = (.ok (), we) := by
    refine sc.call ?_
    simp only [Kind.eqs, heaterEqs, ifPhases, if_neg hnc, List.nil_append]
    refine each_append_ok rd ?_
    rw [each_cons]
    refine (PyM.bind_of_ok re).trans ?_
    rfl
  refine ⟨_, wb, wc, we, hnew, rc, hcall, ?_⟩
  rintro ρ hρ X rfl
  rw [se.solves (se.fits hρ)]
  have hE : newEqs heaterFixed = [("molar_conservation", .bin .sub (q "ndot_in") (q "ndot_out")), ("mass_conservation", .bin .sub (q "mdot_in") (q "mdot_out")),
    ("mechanical_equilibrium", .bin .add (.bin .sub (q "P_out") (q "P_in")) (q "Delta_P")),
    ("energy_balance", .bin .sub (.bin .sub (.bin .mul (q "ndot_out") (q "H_out")) (.bin .mul (q "ndot_in") (q "H_in"))) (q "Q"))] := rfl
  have hp : ∀ a b c : K, a - b + c = 0 ↔ a + c = b := fun a b c => by
    rw [sub_add_eq_add_sub, sub_eq_zero]
  have hp' : ∀ a b c : K, a - b - c = 0 ↔ a = b + c := fun a b c => by
    rw [sub_sub, sub_eq_zero]
  have hq : ∀ a b c d : K, (Option.bind (if d = 0 then none else some (c / d)) fun x => some (a - b - x)) = some 0 ↔ d ≠ 0 ∧ d * (a - b) = c := fun a b c d => by
    by_cases hd : d = 0
    · simp [hd]
    · rw [if_neg hd]
      simp only [Option.bind_some, Option.some.injEq, ne_eq, hd, not_false_eq_true, true_and, sub_eq_zero, eq_div_iff hd, mul_comm]
  simp only [hE, List.nil_append, List.cons_append, List.mem_cons, forall_eq_or_imp, List.not_mem_nil, false_implies, implies_true, and_true,
    Spec.aval, q, Spec.opVal, Option.bind_eq_bind, Option.bind_some, hq]
  simp only [Option.some.injEq, hp, hp']
  simp only [sub_eq_zero]

end

/-! ## Streams -/

/-- An interpretation that knows no function. -/
def noFn : Interp ℚ where
  fn _ _ := none
  pow x y := if y.den = 1 then (if x = 0 ∧ y.num < 0 then none else some (x ^ y.num)) else none
  pow_int x n := by simp only [Rat.den_intCast, Rat.num_intCast, if_true]; congr

theorem bind_world {α β : Type} {x : PyM α} {f : α → PyM β} {w w' : World} (hx : (x w).2 = w') (hf : ∀ a, (f a w').2 = w') : ((x >>= f) w).2 = w' := by
  rw [PyM.bind_run]
  rcases hr : x w with ⟨_ | a, w1⟩
  · rw [hr] at hx; exact hx
  · rw [hr] at hx; rw [show w1 = w' from hx]; exact hf a

theorem streamCall_world (m : MRef) (lib : Option Rat → Option Rat → Except Err Unit) (v : View) {w w' : World} (h : convertFlux m v w = (.ok (), w'))
    (hm : ∀ mo, w'.ms[m]? = some mo → mo.inlets = []) : (streamCall m lib (some v) w).2 = w' := by
  unfold streamCall
  refine bind_world ?_ fun _ => ?_
  · unfold streamParameters
    refine bind_world (by rw [h]) fun _ => bind_world rfl fun t => bind_world rfl fun p => ?_
    rcases t.2.isSpecified || p.2.isSpecified <;> rfl
  · cases hg : w'.ms[m]? with
    | none => rw [PyM.bind_of_error (PyM.getM_none hg)]
    | some mo =>
      rw [PyM.bind_of_ok (PyM.getM_of hg), hm mo hg]
      rfl

/-- C47 for streams of a single phase: when one of the two fluxes is given, the call (even if the external library then refuses
the temperature and pressure) makes them agree through the molar mass of the last phase, and keeps the one that was given. -/
theorem stream_conversion {w : World} (hw : Reachable w) (name description : String) (v : View) {pn : String} {c : Chem} {mw : Rat}
    (hc : v.phases.getLast? = some (pn, c)) (hm : c.MW = some mw) (hm0 : mw ≠ 0) (us : List (String × Rat))
    (hu : ∀ p ∈ us, p.1 ∈ ["mdot", "ndot", "P", "H", "T"]) (h1 : "mdot" ∈ us.map Prod.fst ↔ "ndot" ∉ us.map Prod.fst)
    (lib : Option Rat → Option Rat → Except Err Unit) :
    ∃ m w1 w2, newStream name description w = (.ok m, w1) ∧ each us (fun p => setFloat m p.1 p.2) w1 = (.ok (), w2) ∧
      ∃ a b, Holds (streamCall m lib (some v) w2).2 m "mdot" a ∧ Holds (streamCall m lib (some v) w2).2 m "ndot" b ∧
        a.isSpecified = true ∧ b.isSpecified = true ∧ a.value = b.value * mw / 1000 ∧
        ("mdot" ∈ us.map Prod.fst → Holds w2 m "mdot" a) ∧ ("ndot" ∈ us.map Prod.fst → Holds w2 m "ndot" b) := by
  obtain ⟨wa, ra, sa, ua, -⟩ := (St.start (I := noFn) name description {} w).run (C := []) (K' := []) (l := streamPars)
    (by decide +kernel) (by simp) (by simp) (by simp)
  have ua := ua (by simp [Unset])
  have hnew : newStream name description w = (.ok w.ms.length, wa) := by
    unfold newStream
    rw [PyM.bind_of_ok (newModel_ok _ _ _ hw), PyM.bind_of_ok ra]
    rfl
  obtain ⟨wb, rb, sb, kb⟩ := St.sets (show St noFn wa _ _ _ _ [] from sa) hu
  have hk : v.molarMass = .ok (mw * (1 / 1000)) := by simp [View.molarMass, View.star, hc, hm]
  obtain ⟨a, ha, -⟩ := sb.holds (a := "mdot") (by decide +kernel)
  obtain ⟨b, hb, -⟩ := sb.holds (a := "ndot") (by decide +kernel)
  obtain ⟨ra1, la⟩ : ∃ r, lookupM w.ms.length { attr := "mdot" } wb = (.ok (r, a), wb) :=
    ha.lookup.imp fun r hr => by simp only [lookupM, hr]
  obtain ⟨rb1, lb⟩ : ∃ r, lookupM w.ms.length { attr := "ndot" } wb = (.ok (r, b), wb) :=
    hb.lookup.imp fun r hr => by simp only [lookupM, hr]
  have ka := kb _ (by decide +kernel) a ha
  have kb' := kb _ (by decide +kernel) b hb
  by_cases hg : "mdot" ∈ us.map Prod.fst
  · rw [if_pos hg] at ka
    rw [if_neg (h1.mp hg)] at kb'
    have ub := ua _ (by decide +kernel) b kb'
    obtain ⟨wc, rc, sc, kc⟩ := sb.set (a := "ndot") (by decide +kernel) (a.value / (mw * (1 / 1000))) (Or.inl rfl)
    obtain ⟨a', ha', -⟩ := sc.holds (a := "mdot") (by decide +kernel)
    obtain ⟨b', hb', -⟩ := sc.holds (a := "ndot") (by decide +kernel)
    have ea := kc _ (by decide +kernel) a' ha'
    have eb := kc _ (by decide +kernel) b' hb'
    rw [if_neg (by decide)] at ea
    rw [if_pos rfl] at eb
    have := ea.unique ha
    subst this
    obtain ⟨ra2, la'⟩ : ∃ r, lookupM w.ms.length { attr := "mdot" } wc = (.ok (r, a'), wc) :=
      ha'.lookup.imp fun r hr => by simp only [lookupM, hr]
    obtain ⟨rb2, lb'⟩ : ∃ r, lookupM w.ms.length { attr := "ndot" } wc = (.ok (r, b'), wc) :=
      hb'.lookup.imp fun r hr => by simp only [lookupM, hr]
    have hin : ∀ mo, wc.ms[w.ms.length]? = some mo → mo.inlets = [] := by
      obtain ⟨⟨mo, g1, -, -, g2, -⟩, -⟩ := sc
      intro mo' g; rw [g1] at g; cases g; exact g2
    have hconv : convertFlux w.ms.length v wb = (.ok (), wc) := by
      have hm1 : mw * (1 / 1000) ≠ 0 := mul_ne_zero hm0 (by norm_num)
      unfold convertFlux
      rw [PyM.bind_of_ok la, PyM.bind_of_ok lb]
      have hfst : (PyM.when (a'.isSpecified && !b.isSpecified) (do
          let k ← lift v.molarMass
          if k = 0 then raise .zeroDivision else setFloat w.ms.length "ndot" (a'.value / k))) wb = (.ok (), wc) := by
        rw [ka.2, ub]
        simp only [Bool.not_false, Bool.and_self, when_true, hk]
        rw [PyM.bind_lift_ok, if_neg hm1]
        exact rc
      rw [PyM.bind_of_ok hfst, PyM.bind_of_ok la', PyM.bind_of_ok lb']
      simp only [ka.2, Bool.not_true, Bool.false_and]
      rfl
    refine ⟨_, wa, wb, hnew, rb, a', b', ?_, ?_, ka.2, eb.2, ?_, fun _ => ha, fun hh => absurd hh (h1.mp hg)⟩
    · rw [streamCall_world _ _ _ hconv hin]; exact ha'
    · rw [streamCall_world _ _ _ hconv hin]; exact hb'
    · rw [eb.1]; field_simp
  · have hg' : "ndot" ∈ us.map Prod.fst := by
      by_contra hc; exact hg (h1.mpr hc)
    rw [if_neg hg] at ka
    rw [if_pos hg'] at kb'
    have ub := ua _ (by decide +kernel) a ka
    obtain ⟨wc, rc, sc, kc⟩ := sb.set (a := "mdot") (by decide +kernel) (b.value * (mw * (1 / 1000))) (Or.inl rfl)
    obtain ⟨a', ha', -⟩ := sc.holds (a := "mdot") (by decide +kernel)
    obtain ⟨b', hb', -⟩ := sc.holds (a := "ndot") (by decide +kernel)
    have ea := kc _ (by decide +kernel) a' ha'
    have eb := kc _ (by decide +kernel) b' hb'
    rw [if_pos rfl] at ea
    rw [if_neg (by decide)] at eb
    have := eb.unique hb
    subst this
    have hin : ∀ mo, wc.ms[w.ms.length]? = some mo → mo.inlets = [] := by
      obtain ⟨⟨mo, g1, -, -, g2, -⟩, -⟩ := sc
      intro mo' g; rw [g1] at g; cases g; exact g2
    have hconv : convertFlux w.ms.length v wb = (.ok (), wc) := by
      unfold convertFlux
      rw [PyM.bind_of_ok la, PyM.bind_of_ok lb]
      have hfst : (PyM.when (a.isSpecified && !b'.isSpecified) (do
          let k ← lift v.molarMass
          if k = 0 then raise .zeroDivision else setFloat w.ms.length "ndot" (a.value / k))) wb = (.ok (), wb) := by
        rw [ub]; rfl
      rw [PyM.bind_of_ok hfst, PyM.bind_of_ok la, PyM.bind_of_ok lb]
      simp only [ub, kb'.2, Bool.not_false, Bool.and_self, when_true, hk]
      rw [PyM.bind_lift_ok]
      exact rc
    refine ⟨_, wa, wb, hnew, rb, a', b', ?_, ?_, ea.2, kb'.2, ?_, fun hh => absurd hh hg, fun _ => hb⟩
    · rw [streamCall_world _ _ _ hconv hin]; exact ha'
    · rw [streamCall_world _ _ _ hconv hin]; exact hb'
    · rw [ea.1]; ring

end Sloth.Lib
