import Verif.Props.Coherence

/-!
# What the unit operations of the library do not do (C47), and sample packages
-/

namespace Sloth.Lib
open Sloth PyM Spec

/-! ## Samples -/

namespace Ex
/-- Two phases. -/
def brine : View := { count := 2, names := ["l", "g"], phases := [("l", ⟨some 18, some 1000, some 4184⟩), ("g", ⟨some 18, some 1, some 2000⟩)] }
/-- One phase. -/
def water : View := { count := 1, names := ["water"], phases := [("water", ⟨some 18, some 1000, some 4184⟩)] }
/-- Two packages of one phase added: the number of phases stays 1 (`Pkg.add_union`). -/
def both : View := { count := 1, names := ["water", "oil"], phases := [("water", ⟨some 18, some 1000, some 4184⟩), ("oil", ⟨some 100, some 800, some 2000⟩)] }
/-- Names no Python code can contain, one repeated, more phases announced. -/
def odd : View := { count := 3, names := ["C-12", "a", "a"], phases := [] }
end Ex

theorem init_reachable : Reachable World.init := ⟨[], rfl⟩

/-- The hypotheses of `pump_balances`. -/
example : Reachable World.init ∧ Ex.brine.names.Nodup ∧ (∀ p ∈ Ex.brine.names, Spec.PhaseName p) ∧
    ∀ p ∈ ([("P_in", 100000), ("z_l_in", 1/2)] : List (String × Rat)), p.1 ∈ Spec.pumpAttrs Ex.brine :=
  ⟨init_reachable, by decide +kernel, by decide +kernel, by decide +kernel⟩

/-- The hypotheses of `mixer_balances`. -/
example : Reachable World.init ∧ Ex.brine.names.Nodup ∧ (∀ p ∈ Ex.brine.names, Spec.PhaseName p) ∧ (Ex.brine.count ≥ 2 → Ex.brine.names.length > 1) :=
  ⟨init_reachable, by decide +kernel, by decide +kernel, fun _ => by decide +kernel⟩

/-- The hypotheses of `mixed_last`, with fractions one quarter and three quarters. -/
example : ∃ X : String → ℚ, Spec.Mixed X Ex.brine.names ∧ Spec.PhasesKept X Ex.brine.names.dropLast :=
  ⟨fun a => if a = "z_l_in" ∨ a = "z_l_out" ∨ a = "w_l_in" ∨ a = "w_l_out" then 1/4 else 3/4, by unfold Spec.Mixed; decide +kernel, by
    unfold Spec.PhasesKept; decide +kernel⟩

/-- The hypotheses of `valve_balances_partial`. -/
example : Reachable World.init ∧ Ex.water.count < 2 ∧ Ex.water.phases.getLast? = some ("water", ⟨some 18, some 1000, some 4184⟩) ∧ (1000 : Rat) ≠ 0 ∧
    ∀ p ∈ ([("P_in", 100000), ("perc_open", 1/2)] : List (String × Rat)), p.1 ∈ ["ndot_in", "ndot_out", "mdot_in", "mdot_out", "Qdot_out", "H_in", "H_out", "P_in", "P_out",
      "T_in", "T_out", "Delta_P", "perc_open"] :=
  ⟨init_reachable, by decide +kernel, by decide +kernel, by decide +kernel, by decide +kernel⟩

/-- The hypotheses of `heater_balances_partial`. -/
example : Reachable World.init ∧ Ex.water.count < 2 ∧ Ex.water.phases.getLast? = some ("water", ⟨some 18, some 1000, some 4184⟩) ∧ (4184 : Rat) ≠ 0 ∧
    (∀ p ∈ ([("Q", 1000), ("mdot_out", 2)] : List (String × Rat)), p.1 ∈ ["ndot_in", "ndot_out", "mdot_in", "mdot_out", "P_in", "P_out", "Delta_P", "H_in", "H_out", "Q",
      "T_in", "T_out", "cp_mix"]) ∧ ("mdot_out", 0) ∉ ([("Q", 1000), ("mdot_out", 2)] : List (String × Rat)) ∧
      ("cp_mix", 0) ∉ ([("Q", 1000), ("mdot_out", 2)] : List (String × Rat)) :=
  ⟨init_reachable, by decide +kernel, by decide +kernel, by decide +kernel, by decide +kernel, by decide +kernel, by decide +kernel⟩

/-- The hypotheses of `stream_conversion`. -/
example : Ex.water.phases.getLast? = some ("water", ⟨some 18, some 1000, some 4184⟩) ∧ (18 : Rat) ≠ 0 ∧
    (∀ p ∈ ([("mdot", 36), ("T", 300)] : List (String × Rat)), p.1 ∈ ["mdot", "ndot", "P", "H", "T"]) ∧
    ("mdot" ∈ ([("mdot", 36), ("T", 300)] : List (String × Rat)).map Prod.fst ↔ "ndot" ∉ ([("mdot", 36), ("T", 300)] : List (String × Rat)).map Prod.fst) :=
  ⟨by decide +kernel, by decide +kernel, by decide +kernel, by decide +kernel⟩

/-- A case of `library_coherent`: the mixer is created, so its call and inlets are covered; with odd names it is not. -/
example : (newUnit .mixer "M" "" (some Ex.brine) World.init).1.toOption = some 0 := by decide +kernel

example : (newUnit .mixer "M" "" (some Ex.odd) World.init).1.toOption = none := by decide +kernel

/-! ## Unit operations that cannot be used -/

/-- Without a property package, which is the default, no unit operation can be created. -/
theorem unit_without_package (k : Kind) {w : World} (hw : Reachable w) (name description : String) :
    (newUnit k name description none w).1 = .error .attributeError := by
  simp only [newUnit]
  rw [PyM.bind_of_ok (newModel_ok name description _ hw)]
  rfl

theorem each_raises {l : List Cmd} {m : MRef} {c : Cmd} (hc : c ∈ l) (hr : ∀ w, ∃ e, (c.run m w).1 = .error e) (w : World) :
    ∃ e, (each l (Cmd.run m) w).1 = .error e := by
  induction l generalizing w with
  | nil => cases hc
  | cons a t ih =>
    rw [each_cons]
    rcases List.mem_cons.mp hc with rfl | hc
    · exact PyM.bind_raises_left (hr w)
    · exact PyM.bind_raises (P := fun _ => True) trivial fun _ w _ => ih hc w

/-- The property of the last chemical of the package is known. -/
def Spec.Known (v : View) (f : Chem → Option Rat) : Prop := ∃ p c x, v.phases.getLast? = some (p, c) ∧ f c = some x

theorem setOther_raises (m : MRef) (a : String) (w : World) : ∃ e, ((Cmd.setValue { attr := a } .other none).run m w).1 = .error e := by
  refine PyM.bind_raises (P := fun _ => True) trivial fun x w _ => ?_
  show ∃ e, ((getQ x.1 >>= fun q => lift (q.setValue .other none) >>= fun q => setQ x.1 q) w).1 = .error e
  exact PyM.bind_raises (P := fun _ => True) trivial fun q w _ => ⟨.unexpectedValue, rfl⟩

theorem star_unknown {v : View} {f : Chem → Option Rat} (h : ¬ Spec.Known v f) : (∃ e, v.star = .error e) ∨ ∃ c, v.star = .ok c ∧ f c = none := by
  unfold View.star
  cases hp : v.phases.getLast? with
  | none => exact Or.inl ⟨_, rfl⟩
  | some pc =>
    refine Or.inr ⟨pc.2, rfl, ?_⟩
    cases hf : f pc.2 with
    | none => rfl
    | some x => exact absurd ⟨pc.1, pc.2, x, hp, hf⟩ h

/-- With two phases or more, or a chemical whose heat capacity is not known, heaters, coolers and dynamic flash drums cannot be created. -/
theorem heater_phases_never (k : Kind) (hk : k = .heater ∨ k = .flashDyn) {w : World} (hw : Reachable w) (name description : String) (v : View)
    (hv : v.count ≥ 2 ∨ ¬ Spec.Known v Chem.Cp) : ∃ e, (newUnit k name description (some v) w).1 = .error e := by
  simp only [newUnit]
  rw [PyM.bind_of_ok (newModel_ok name description _ hw)]
  refine PyM.bind_raises_left (each_raises (c := cpMix v) ?_ (fun w => ?_) _)
  · rcases hk with rfl | rfl
    · simp [Kind.init, heaterInit]
    · simp [Kind.init, flashDynInit]
  · by_cases hc : v.count ≥ 2
    · exact ⟨.nameError, by simp [cpMix, if_pos hc, Cmd.run]⟩
    · rcases star_unknown (hv.resolve_left hc) with ⟨e, hs⟩ | ⟨c, hs, hn⟩
      · exact ⟨e, by simp [cpMix, if_neg hc, hs, Cmd.run]⟩
      · simp only [cpMix, if_neg hc, hs, hn, floatArg]
        exact setOther_raises _ _ _

/-- A model keeps its body. -/
theorem newUnit_body {k : Kind} {w w1 : World} (hw : Reachable w) {name description : String} {v : View} {m : MRef}
    (h : newUnit k name description (some v) w = (.ok m, w1)) : ∃ mo, w1.ms[m]? = some mo ∧ mo.body = { eqns := k.eqs v } := by
  simp only [newUnit] at h
  rw [PyM.bind_of_ok (newModel_ok name description _ hw), PyM.bind_run] at h
  have hl := le_stable.cmds w.ms.length (k.init v) { w with ms := w.ms ++ [{ name := name, description := description, body := { eqns := k.eqs v }, ports := 0 }] }
  rcases hr : each (k.init v) (Cmd.run w.ms.length)
      { w with ms := w.ms ++ [{ name := name, description := description, body := { eqns := k.eqs v }, ports := 0 }] } with ⟨e | u, w'⟩
  · rw [hr] at h; cases h
  · rw [hr] at h hl
    cases h
    obtain ⟨mo', h1, h2⟩ := hl.ms w.ms.length { name := name, description := description, body := { eqns := k.eqs v }, ports := 0 } (by simp)
    exact ⟨mo', h1, h2.body⟩

/-- Flash drums cannot be called, and with two phases or more, or a chemical whose density is not known, neither can valves, whatever happens between creation and call. -/
theorem call_never (k : Kind) {w w1 : World} (hw : Reachable w) (name description : String) (v : View)
    (hk : k = .flash ∨ k = .flashDyn ∨ (k = .valve ∧ (v.count ≥ 2 ∧ v.names ≠ [] ∨ v.count < 2 ∧ ¬ Spec.Known v Chem.rho))) {m : MRef}
    (h : newUnit k name description (some v) w = (.ok m, w1)) (ops : List Op) : ∃ e, (Model.call m (history ops w1)).1 = .error e := by
  obtain ⟨mo, h1, h2⟩ := newUnit_body hw h
  have hbad : ∃ c ∈ k.eqs v, ∀ w, ∃ e, (c.run m w).1 = .error e := by
    rcases hk with rfl | rfl | ⟨rfl, ⟨hc, hn⟩ | ⟨hc, hn⟩⟩
    · exact ⟨.fail .nameError, by simp [Kind.eqs, flashEqs], fun w => ⟨_, rfl⟩⟩
    · exact ⟨.fail .nameError, by simp [Kind.eqs, flashDynEqs], fun w => ⟨_, rfl⟩⟩
    · refine ⟨mixRho v, by simp [Kind.eqs, valveEqs], fun w => ?_⟩
      simp only [mixRho, if_pos hc, if_neg hn]
      exact setOther_raises _ _ _
    · refine ⟨mixRho v, by simp [Kind.eqs, valveEqs], fun w => ?_⟩
      simp only [mixRho, if_neg (not_le.mpr hc)]
      rcases star_unknown hn with ⟨e, hs⟩ | ⟨c, hs, hn⟩
      · rw [hs]; exact ⟨e, rfl⟩
      · simp only [hs, hn, floatArg]
        exact setOther_raises _ _ _
  obtain ⟨c, hc, hr⟩ := hbad
  obtain ⟨mo', g1, g2⟩ := (history_le ops w1).ms m mo h1
  have hb : mo'.body = { eqns := k.eqs v } := g2.body.trans h2
  have hkeep : ∀ {w : World}, (∃ mo, w.ms[m]? = some mo ∧ mo.body = { eqns := k.eqs v }) → ∃ e,
      ((getM m >>= fun mo => PyM.when (!mo.inlets.isEmpty) (totalizeInlets m) >>= fun _ => each mo.body.eqns (Cmd.run m)) w).1 = .error e := by
    rintro w ⟨mo, k1, k2⟩
    rw [PyM.bind_of_ok (PyM.getM_of k1), k2]
    exact PyM.bind_raises (P := fun _ => True) trivial fun _ w _ => each_raises hc hr w
  unfold Model.call
  rw [PyM.bind_of_ok (PyM.getM_of g1), hb]
  exact hkeep ⟨mo', g1, hb⟩

/-- What the call of a valve with several phases ends with: whatever values are given before, the density of the mixture, an expression, is refused as
a value (the parameter it was meant for stays without one).  The phases are taken to be listed in the package, with known densities. -/
theorem valve_phases_refused {w : World} (hw : Reachable w) (name description : String) (v : View) (hv : v.count ≥ 2) (hne : v.names ≠ [])
    (hn : v.names.Nodup) (hi : ∀ p ∈ v.names, Spec.PhaseName p) (_ : ∀ p ∈ v.names, ∃ c x, dget v.phases p = some c ∧ c.rho = some x)
    (us : List (String × Rat)) (hu : ∀ p ∈ us, p.1 ∈ ["ndot_in", "ndot_out", "mdot_in", "mdot_out", "Qdot_out", "H_in", "H_out", "P_in", "P_out",
      "T_in", "T_out", "Delta_P", "perc_open"]) :
    ∃ m w1 w2 w3, newUnit .valve name description (some v) w = (.ok m, w1) ∧ each us (fun p => setFloat m p.1 p.2) w1 = (.ok (), w2) ∧
      Model.call m w2 = (.error .unexpectedValue, w3) ∧ ∃ r q, w3.lookup m { attr := "mix_rho" } = .ok (r, q) ∧ q.isSpecified = false := by
  obtain ⟨wa, ra, sa, -, -⟩ := (St.start (I := noFn) name description { eqns := Kind.eqs v .valve } w).run (C := []) (K' := []) (l := valvePorts)
    (by decide +kernel) (by simp) (by simp) (by simp)
  obtain ⟨wb, rb, sb, -⟩ := sa.ifFracs v hn (phaseNames hi) (by decide +kernel)
  have hnew : newUnit .valve name description (some v) w = (.ok w.ms.length, wb) := newUnit_ok hw (each_append_ok ra rb)
  obtain ⟨wc, rc, sc, -⟩ := St.sets (show St noFn wb _ _ _ _ [] from sb) (fun p hp => List.mem_append_left _ (hu p hp))
  obtain ⟨wd, rd, sd, -⟩ := sc.run (C := news valvePorts) (K' := []) (l := valveFixed) (by decide +kernel)
    (fun a ha => List.mem_append_left _ ha) (mem_ifFracs _ v) (by simp)
  obtain ⟨we, re, se, -, ⟨y, hy, hys⟩, -⟩ := sd.par (a := "mix_rho") (x := { name := "mix_rho", units := kgm3, description := "Density for the mixture of components", latex := "" })
    (fun hm => by
      rcases List.mem_append.mp hm with hm | hm
      · rcases mem_ifFracs _ v _ hm with hm | hm
        · exact absurd hm (by decide +kernel)
        · exact absurd hm (by decide +kernel)
      · exact absurd hm (by decide +kernel)) (by decide) rfl (lib_units (by decide +kernel)) (by decide +kernel)
  obtain ⟨mo, r, h1, h2, h3⟩ := hy
  have hl : we.lookup w.ms.length { attr := "mix_rho" } = .ok (r, y) := by simp [World.lookup, h1, h2, h3]
  have hmix : (mixRho v).run w.ms.length we = (.error .unexpectedValue, we) := by
    have hlm : lookupM w.ms.length { attr := "mix_rho" } we = (.ok (r, y), we) := by simp only [lookupM, hl]
    simp only [mixRho, if_pos hv, if_neg hne, Cmd.run]
    rw [PyM.bind_of_ok hlm]
    show (getQ r >>= fun q => lift (q.setValue .other none) >>= fun q => setQ r q) we = _
    rw [PyM.bind_of_ok (getQ_of h3)]
    rfl
  have hrun : each (Kind.eqs v .valve) (Cmd.run w.ms.length) wc = (.error .unexpectedValue, we) := by
    simp only [Kind.eqs, valveEqs]
    rw [List.append_assoc, each_append, PyM.bind_of_ok rd]
    show each (_ :: _ :: _) _ _ = _
    rw [each_cons]
    refine (PyM.bind_of_ok re).trans ?_
    rw [each_cons, PyM.bind_run, hmix]
  refine ⟨_, wb, wc, we, hnew, rc, ?_, r, y, hl, hys⟩
  obtain ⟨mo, h1, h2, h3, h4, -⟩ := sc.obj
  unfold Model.call
  rw [PyM.bind_of_ok (getM_of h1), h3]
  simp only [each_nil]
  show (getM w.ms.length >>= fun mo' => PyM.when (!mo'.inlets.isEmpty) (totalizeInlets w.ms.length) >>= fun _ => each mo'.body.eqns (Cmd.run w.ms.length)) wc = _
  rw [PyM.bind_of_ok (getM_of h1), h4, h3]
  exact hrun

/-- The hypotheses of `valve_phases_refused`. -/
example : Ex.brine.count ≥ 2 ∧ Ex.brine.names ≠ [] ∧ Ex.brine.names.Nodup ∧ (∀ p ∈ Ex.brine.names, Spec.PhaseName p) ∧
    ∀ p ∈ Ex.brine.names, ∃ c x, dget Ex.brine.phases p = some c ∧ c.rho = some x :=
  ⟨by decide +kernel, by decide +kernel, by decide +kernel, by decide +kernel, by
    intro p hp
    simp only [Ex.brine, List.mem_cons, List.not_mem_nil, or_false] at hp
    rcases hp with rfl | rfl
    · exact ⟨_, _, rfl, rfl⟩
    · exact ⟨_, _, rfl, rfl⟩⟩

theorem newUnit_dm {k : Kind} {w w1 : World} (hw : Reachable w) {name description : String} {v : View} {m : MRef}
    (h : newUnit k name description (some v) w = (.ok m, w1)) (us : List (String × Rat)) :
    Dm (Spec.dimFor k) { eqns := k.eqs v } m (each us (fun p => setFloat m p.1 p.2) w1).2 := by
  have h0 : Dm (Spec.dimFor k) { eqns := k.eqs v } w.ms.length
      { w with ms := w.ms ++ [{ name := name, description := description, body := { eqns := k.eqs v }, ports := 0 }] } :=
    ⟨{ name := name, description := description, body := { eqns := k.eqs v }, ports := 0 }, by simp, ⟨rfl, rfl, rfl⟩, fun a r h => by cases h⟩
  obtain ⟨-, hd⟩ := h0.cmds (init_wt k v)
  simp only [newUnit] at h
  rw [PyM.bind_of_ok (newModel_ok name description _ hw), PyM.bind_run] at h
  rcases hr : each (k.init v) (Cmd.run w.ms.length)
      { w with ms := w.ms ++ [{ name := name, description := description, body := { eqns := k.eqs v }, ports := 0 }] } with ⟨e | u, w'⟩
  · rw [hr] at h; cases h
  · rw [hr] at h hd
    cases h
    have hus : each us (fun p => setFloat w.ms.length p.1 p.2) = each (us.map fun p => Cmd.setValue { attr := p.1 } (.float p.2) none) (Cmd.run w.ms.length) := by
      clear hr hd
      induction us with
      | nil => rfl
      | cons p t ih => simp only [List.map_cons, each_cons, ih]; rfl
    rw [hus]
    exact (hd.cmds (l := us.map fun p => Cmd.setValue { attr := p.1 } (.float p.2) none) (by
      intro c hc
      obtain ⟨p, -, rfl⟩ := List.mem_map.mp hc
      rfl)).2

/-- Tanks (and fermenters) cannot be called: the equation reads `self.self`. -/
theorem tank_call_never {w w1 : World} (hw : Reachable w) (name description : String) (v : View) {m : MRef}
    (h : newUnit .tank name description (some v) w = (.ok m, w1)) (us : List (String × Rat)) :
    ∃ e, (Model.call m (each us (fun p => setFloat m p.1 p.2) w1).2).1 = .error e := by
  obtain ⟨mo, h1, ⟨h2, h3, h4⟩, -⟩ := newUnit_dm hw h us
  unfold Model.call
  rw [PyM.bind_of_ok (PyM.getM_of h1), h3]
  show ∃ e, ((getM m >>= fun mo => PyM.when (!mo.inlets.isEmpty) (totalizeInlets m) >>= fun _ => each mo.body.eqns (Cmd.run m)) _).1 = .error e
  rw [PyM.bind_of_ok (PyM.getM_of h1), h3, h2]
  refine PyM.bind_raises_left (x := Cmd.run m _) (PyM.bind_raises_left ?_)
  have hl : World.lookup (each us (fun p => setFloat m p.1 p.2) w1).2 m { attr := "self" } = .error .attributeError := by
    simp [World.lookup, h1, h4]
  simp only [AStmt.eval, AStmt.toStmt, AExpr.toPy, q, hl]
  cases World.lookup (each us (fun p => setFloat m p.1 p.2) w1).2 m { attr := "N" } with
  | error e => exact ⟨e, rfl⟩
  | ok x =>
    cases World.lookup (each us (fun p => setFloat m p.1 p.2) w1).2 m { attr := "t" } with
    | error e => exact ⟨e, rfl⟩
    | ok y => exact ⟨_, rfl⟩

/-- Tanks and flash drums with a package of one phase, valves with any, can be created. -/
example : [Kind.tank, .flash, .flashDyn].all (fun k => (newUnit k "T" "" (some Ex.water) World.init).1.toOption == some 0) ∧
    (newUnit .valve "V" "" (some Ex.brine) World.init).1.toOption = some 0 ∧ Ex.brine.count ≥ 2 ∧ Ex.brine.names ≠ [] := by
  decide +kernel

/-! ## Balances that are not forced -/

/-- A mixer made with the sum of two packages of one phase does not conserve the last phase. -/
theorem mixer_of_sum_leaks : ∃ m w1, newUnit .mixer "M" "" (some Ex.both) World.init = (.ok m, w1) ∧ ∃ ρ : Atom → ℚ, Spec.Solves noFn w1 m ρ ∧
    ρ (.v "z_oil_in_M") ≠ ρ (.v "z_oil_out_M") := by
  obtain ⟨m, w1, h1, h2⟩ := mixer_balances noFn init_reachable "M" "" Ex.both (by decide +kernel) (by decide +kernel) (by decide +kernel)
  refine ⟨m, w1, h1, fun a => if a = .v "z_oil_in_M" then 1 else 0, ?_, by decide +kernel⟩
  obtain ⟨-, h⟩ := h2 [] w1 rfl
  rw [h _ _ rfl]
  unfold Spec.Mixed Spec.PhasesKept
  decide +kernel

/-- The equations of a mixer (and those of a pump) do not tie the mass flux to the molar flux. -/
theorem mixer_fluxes_independent : ∃ m w1, newUnit .mixer "M" "" (some Ex.water) World.init = (.ok m, w1) ∧ ∀ x y : ℚ, ∃ ρ : Atom → ℚ, Spec.Solves noFn w1 m ρ ∧
    ρ (.v "mdot_in_M") = x ∧ ρ (.v "ndot_in_M") = y := by
  obtain ⟨m, w1, h1, h2⟩ := mixer_balances noFn init_reachable "M" "" Ex.water (by decide +kernel) (by decide +kernel) (by decide +kernel)
  refine ⟨m, w1, h1, fun x y => ⟨fun a => if a = .v "mdot_in_M" ∨ a = .v "mdot_out_M" then x else if a = .v "ndot_in_M" ∨ a = .v "ndot_out_M" then y else 0, ?_, ?_, ?_⟩⟩
  · obtain ⟨-, h⟩ := h2 [] w1 rfl
    rw [h _ _ rfl]
    have hc : ¬ Ex.water.count ≥ 2 := by decide +kernel
    have hl : ¬ Ex.water.names.length > 1 := by decide +kernel
    refine ⟨?_, ?_, fun h => absurd h hc, fun h => absurd h hl, ?_, ?_, ?_⟩ <;> simp
  · simp
  · simp

/-! ## `UnitOp` objects -/

theorem raises_last {α β : Type} {x : PyM α} {f : α → PyM β} {w : World} (hf : ∀ a w, ∃ e, (f a w).1 = .error e) : ∃ e, ((x >>= f) w).1 = .error e :=
  PyM.bind_raises (P := fun _ => True) trivial fun a w _ => hf a w

theorem totalizeInlets_never (m : MRef) (l : List MRef) (w : World) : ∃ e, (UnitOp.totalizeInlets m l w).1 = .error e :=
  raises_last fun _ _ => raises_last fun _ _ => raises_last fun _ _ => raises_last fun _ _ => raises_last fun _ _ => raises_last fun _ _ =>
    raises_last fun _ _ => raises_last fun _ _ => raises_last fun _ _ => raises_last fun _ w => totalizeMin_error _ _ _ _ w

/-- C64: a `UnitOp` raises in `resolve`, in any state, unless its list of inlets was set to the empty list, and then still if it has one outlet and the package
has a phase (or there is no package). -/
theorem unitop_resolve_raises (u : UnitOp) (isStream : MRef → Bool) (v : Option View)
    (h : u.inlets ≠ some [] ∨ (∃ s, u.outlets = [s]) ∧ ∀ v', v = some v' → v'.names ≠ []) (w : World) :
    ∃ e, (u.resolve isStream v w).1 = .error e := by
  obtain ⟨m, i, o⟩ := u
  unfold UnitOp.resolve
  refine raises_last fun mo _ => raises_last fun _ _ => raises_last fun _ _ => raises_last fun _ w => ?_
  match i with
  | none => exact PyM.bind_raises_left ⟨_, rfl⟩
  | some (s :: t) => exact PyM.bind_raises_left (totalizeInlets_never _ _ _)
  | some [] =>
    obtain ⟨⟨s, rfl⟩, hv⟩ := h.resolve_left (by simp)
    match v with
    | none => exact raises_last fun _ w => raises_last fun _ w => PyM.bind_raises_left ⟨_, rfl⟩
    | some v' =>
      refine raises_last fun _ w => PyM.bind_raises_left ?_
      show ∃ e, ((if isStream s then _ else _ : PyM Unit) w).1 = .error e
      split
      · refine raises_last fun _ _ => raises_last fun _ _ => raises_last fun _ _ => ?_
        cases hn : v'.names with
        | nil => exact absurd hn (hv v' rfl)
        | cons p t =>
          simp only [Option.map_some, Option.getD_some, hn]
          exact ⟨_, rfl⟩
      · exact ⟨_, rfl⟩

/-- Both cases of the hypothesis, and a `UnitOp` for which the theorem says nothing. -/
example : (({ model := 0 } : UnitOp).setInlets [1]).inlets ≠ some [] ∧ ({ model := 0 } : UnitOp).inlets ≠ some [] ∧
    ((({ model := 0 } : UnitOp).setInlets []).setOutlets [1]).outlets = [1] ∧ Ex.water.names ≠ [] ∧
    (UnitOp.resolve (({ model := 0 } : UnitOp).setInlets []) (fun _ => true) (some Ex.water) (newUnit .mixer "M" "" (some Ex.water) World.init).2).1.toOption = some () := by
  decide +kernel

/-- Packages of one phase whose chemical has no known density or heat capacity, and one with both. -/
example : ¬ Spec.Known { count := 1, names := ["x"], phases := [("x", ⟨some 18, none, none⟩)] } Chem.rho ∧
    ¬ Spec.Known { count := 1, names := ["x"], phases := [("x", ⟨some 18, none, none⟩)] } Chem.Cp ∧ Spec.Known Ex.water Chem.rho ∧
    (newUnit .valve "V" "" (some { count := 1, names := ["x"], phases := [("x", ⟨some 18, none, none⟩)] }) World.init).1.toOption = some 0 := by
  refine ⟨?_, ?_, ⟨_, _, _, rfl, rfl⟩, by decide +kernel⟩
  · rintro ⟨p, c, x, h, h'⟩
    simp only [List.getLast?_singleton, Option.some.injEq, Prod.mk.injEq] at h
    rw [← h.2] at h'; cases h'
  · rintro ⟨p, c, x, h, h'⟩
    simp only [List.getLast?_singleton, Option.some.injEq, Prod.mk.injEq] at h
    rw [← h.2] at h'; cases h'

/-- C64: the lists of inlets and outlets are replaced by the last ones given, and inlets and outlets do not influence each other. -/
theorem unitop_lists_replaced (u : UnitOp) (i i' o o' : List MRef) :
    ((((u.setInlets i).setOutlets o).setInlets i').setOutlets o').inlets = some i' ∧ ((((u.setInlets i).setOutlets o).setInlets i').setOutlets o').outlets = o' ∧
    ((u.setInlets i).setOutlets o) = ((u.setOutlets o).setInlets i) ∧ ((u.setInlets i).setOutlets o).model = u.model := ⟨rfl, rfl, rfl, rfl⟩

end Sloth.Lib
