import Verif.Props.SolvedUnits
import Verif.Props.UnitPorts

/-!
# Solved mixers obey their balances (C115)
-/

namespace Sloth
open PyM

/-- Statements of other models leave a model as it is. -/
theorem cmds_apart {k m : MRef} (hne : k ≠ m) {l : List Cmd} (hl : ∀ c ∈ l, ∃ attr name d st ck, c = .eqn attr name d st ck) {w w' : World}
    (h : each l (Cmd.run k) w = (.ok (), w')) : w'.ms[m]? = w.ms[m]? := by
  induction l generalizing w with
  | nil => cases h; rfl
  | cons c t ih =>
    obtain ⟨attr, n, d, st, ck, rfl⟩ := hl c (by simp)
    rw [PyM.each_cons, PyM.bind_ok] at h
    obtain ⟨_, w1, h1, h2⟩ := h
    obtain ⟨_, mo', _, _, _, _, _, _, _, hms, _⟩ := eqn_run h1
    rw [ih (fun c hc => hl c (by simp [hc])) h2, hms, List.getElem?_set_ne hne]

/-- Calls of models that only state equations leave a model that states none as it is. -/
theorem calls_apart {w0 w w' : World} {l : List MRef} (hl : ∀ m ∈ l, Spec.Equational w0 m) (h0 : Stated w0 w) {m : MRef} {mo : ModelObj} (hmo : w0.ms[m]? = some mo)
    (hb : mo.body.eqns = []) (h : each l Model.call w = (.ok (), w')) : w'.ms[m]? = w.ms[m]? := by
  induction l generalizing w with
  | nil => cases h; rfl
  | cons k t ih =>
    rw [PyM.each_cons, PyM.bind_ok] at h
    obtain ⟨_, w1, h1, h2⟩ := h
    obtain ⟨mk, e1, e2, e3, e4, e5, e6⟩ := hl k (by simp)
    obtain ⟨mk', f1, f2, f3, f4, _⟩ := h0.ms k mk e1
    rw [call_each f1 (f4.trans e2), f3, Spec.cmds, e3, e4, e5] at h1
    obtain ⟨s1, _, _⟩ := cmds_stated e6 h0 h1
    rw [ih (fun m hm => hl m (by simp [hm])) s1 h2]
    by_cases hkm : k = m
    · subst hkm
      rw [hmo] at e1; cases e1
      rw [hb] at h1
      cases h1; rfl
    · exact cmds_apart hkm e6 h1

section
variable {K : Type} [Field K] [LinearOrder K]

/-- A run of a resolved algebraic problem with sound libraries solves the equations stored in a model that states none when it is called. -/
theorem stored_solved {ext : Ext K} {I : Interp K} {P : K → Prop} (hsound : Spec.Sound ext I P) {w : World} (hr : Reachable w)
    {s s' : SimWorld K} (hres : resolve w = (.ok (), s.w)) (hp : Spec.Stating w) {b : Block} (hb : s.w.pr.block = some b)
    (hk : b.problemType = some .linear ∨ b.problemType = some .nonlinear) {i : SRef} {a : RunArgs} (h : runSimulation ext I i a s = (.ok (), s'))
    {m : MRef} (hm : m ∈ dvalues w.pr.models) {mo : ModelObj} (hmo : w.ms[m]? = some mo) (hbody : mo.body.eqns = []) :
    ∃ o d, s'.sims[i]? = some o ∧ o.output = some (.dict d) ∧ ∀ ρ : Atom → K, (∀ n v, dget d n = some v → ρ (.v n) = v) →
      ∀ p ∈ mo.eqns, ∀ e x, w.es[p.2]? = some e → e.States (.res x) → ∃ n z, e.expr = some n ∧ n.sym.expr.eval I ρ = some z ∧ P z := by
  obtain ⟨o, sv, out, ho, hout, hsol, hcl⟩ := run_reports hr hres hb hk h
  obtain ⟨k, hk', hkk⟩ : ∃ k, b.problemType = some k ∧ (k = .linear ∨ k = .nonlinear) := by
    rcases hk with hk | hk
    · exact ⟨_, hk, .inl rfl⟩
    · exact ⟨_, hk, .inr rfl⟩
  obtain ⟨d, rfl, hsmall⟩ := solved_small hsound hsol (hcl k hk') hkk
  refine ⟨o, d, ho, hout, fun ρ hρ p hpm e x he hst => ?_⟩
  obtain ⟨b', g, hb', hg, hmod, _, _, _, hga, _, _, _, _, hl⟩ := resolved_block hres
  rw [hb] at hb'; cases hb'
  obtain ⟨w1, g1, b1, hre, hpr, _, hw', _, _⟩ := resolve_ok hres
  have hms : s.w.ms[m]? = some mo := by
    rw [hw']
    exact (calls_apart (fun m hm => (hp m hm).1) (Stated.refl w) hmo hbody hre).trans hmo
  have hes : s.w.es[p.2]? = some e := by
    have hle : w.Le s.w := by
      have := history_le [.resolve] w
      simp only [history, List.foldl_cons, List.foldl_nil, Op.run, hres] at this
      exact this
    exact hle.es _ _ he
  have hin : p.2 ∈ b.equations := by
    obtain ⟨ls, hfl, hf⟩ := gather_equations hga hg
    rw [hfl, List.mem_flatten]
    have hmem' : m ∈ dvalues s.w.pr.models := by rw [hmod]; exact hm
    obtain ⟨j, hj, hjm⟩ := List.getElem_of_mem hmem'
    have hj' : j < ls.length := by rw [← hf.length_eq]; exact hj
    have := List.Forall₂.get hf (i := j) hj hj'
    simp only [List.get_eq_getElem, hjm] at this
    obtain ⟨mo2, q1, q2⟩ := this
    rw [hms] at q1; cases q1
    refine ⟨ls[j], List.getElem_mem hj', ?_⟩
    rw [q2]
    exact List.mem_map.2 ⟨p, hpm, rfl⟩
  obtain ⟨j, hj, hjr⟩ := List.getElem_of_mem hin
  have hf := getEquationList_ok hl
  have hlt : j < b.equationsList.length := by rw [← hf.length_eq]; exact hj
  have := List.Forall₂.get hf (i := j) hj hlt
  simp only [List.get_eq_getElem, hjr] at this
  obtain ⟨e2, q1, q2⟩ := this
  rw [hes] at q1; cases q1
  obtain ⟨z, z1, z2⟩ := hsmall ρ hρ _ (List.getElem_mem hlt)
  obtain ⟨⟨n, hn, hv⟩, hs⟩ := hst I ρ
  obtain ⟨t, t1, t2⟩ := hs .rhs
  rw [q2] at t1; cases t1
  exact ⟨n, z, hn, by rw [hv, ← z1, t2]; rfl, z2⟩
end

namespace Lib
open Sloth PyM

/-- All equations of the model are stated as expressions that are to be zero. -/
def Resid (w : World) (m : MRef) : Prop := ∃ mo, w.ms[m]? = some mo ∧ ∀ p ∈ mo.eqns, ∃ e x, w.es[p.2]? = some e ∧ e.States (.res x)

theorem Resid.le {w w' : World} {m : MRef} (h : Resid w m) (hl : w.Le w')
    (hm : ∀ mo, w.ms[m]? = some mo → ∃ mo', w'.ms[m]? = some mo' ∧ mo'.eqns = mo.eqns) : Resid w' m := by
  obtain ⟨mo, h1, h2⟩ := h
  obtain ⟨mo', g1, g2⟩ := hm mo h1
  refine ⟨mo', g1, fun p hp => ?_⟩
  obtain ⟨e, x, k1, k2⟩ := h2 p (g2 ▸ hp)
  exact ⟨e, x, hl.es _ _ k1, k2⟩

/-- A statement of an equality is none of these. -/
def resOnly : Cmd → Prop
  | .eqn _ _ _ (.res _) _ => True
  | .eqn _ _ _ _ _ => False
  | _ => True

theorem Resid.step {w w' : World} {m : MRef} (h : Resid w m) {c : Cmd} (hc : resOnly c) (hr : c.run m w = (.ok (), w')) : Resid w' m := by
  have hl : w.Le w' := by have := le_stable.cmds m [c] w; rw [PyM.each_cons, PyM.bind_run, hr] at this; exact this
  obtain ⟨mo0, hm0, -⟩ := id h
  have hlt : m < w.ms.length := (List.getElem?_eq_some_iff.1 hm0).1
  cases c with
  | var attr a =>
    simp only [Cmd.run] at hr
    rw [PyM.bind_run, createVariable_run hm0] at hr
    by_cases hk : a.exposed = true ∧ a.vtype ≠ "input" ∧ a.vtype ≠ "output"
    · rw [if_pos hk] at hr; cases hr
    · rw [if_neg hk] at hr
      simp only at hr
      rw [setAttr_run (mo := (mo0.storeVar (a.quantity mo0.name).name w.qs.length).exposeAs a w.qs.length) (by simp [World.withM, World.addQ, hlt]), Prod.mk.injEq] at hr
      obtain ⟨-, rfl⟩ := hr
      refine h.le hl fun mo hmo => ?_
      rw [hm0] at hmo; cases hmo
      refine ⟨{ (mo0.storeVar (a.quantity mo0.name).name w.qs.length).exposeAs a w.qs.length with
            attrs := dset ((mo0.storeVar (a.quantity mo0.name).name w.qs.length).exposeAs a w.qs.length).attrs attr (.qty w.qs.length) },
          (by simp [World.withM, World.addQ, hlt]), ?_⟩
      simp only [ModelObj.exposeAs, ModelObj.storeVar]
      split
      · rfl
      · split <;> rfl
  | par attr a =>
    simp only [Cmd.run] at hr
    rw [PyM.bind_run, createParameter_run hm0] at hr
    simp only at hr
    rw [setAttr_run (mo := mo0.storePar (a.parameter mo0.name).name w.qs.length) (by simp [World.withM, World.addQ, hlt]), Prod.mk.injEq] at hr
    obtain ⟨-, rfl⟩ := hr
    refine h.le hl fun mo hmo => ?_
    rw [hm0] at hmo; cases hmo
    exact ⟨{ mo0.storePar (a.parameter mo0.name).name w.qs.length with attrs := dset mo0.attrs attr (.qty w.qs.length) }, (by simp [World.withM, World.addQ, hlt, ModelObj.storePar]), rfl⟩
  | con attr a =>
    simp only [Cmd.run] at hr
    rw [PyM.bind_run, createConstant_run hm0] at hr
    simp only at hr
    rw [setAttr_run (mo := mo0.storeCon (a.constant mo0.name).name w.qs.length) (by simp [World.withM, World.addQ, hlt]), Prod.mk.injEq] at hr
    obtain ⟨-, rfl⟩ := hr
    refine h.le hl fun mo hmo => ?_
    rw [hm0] at hmo; cases hmo
    exact ⟨{ mo0.storeCon (a.constant mo0.name).name w.qs.length with attrs := dset mo0.attrs attr (.qty w.qs.length) }, (by simp [World.withM, World.addQ, hlt, ModelObj.storeCon]), rfl⟩
  | eqn attr name d st ck =>
    obtain ⟨mo, mo', st', e, k1, k2, k3, k4, _, k6, _, _, _, _, k11, _⟩ := eqn_run hr
    obtain ⟨x, rfl⟩ : ∃ x, st' = .res x := by
      cases st with
      | res y =>
        simp only [AStmt.toStmt, bind_eq_ok, Except.ok.injEq] at k2
        obtain ⟨x, _, rfl⟩ := k2
        exact ⟨x, rfl⟩
      | _ => exact absurd hc id
    rw [hm0] at k1; cases k1
    refine ⟨mo', by rw [k6]; simp [hlt], fun p hp => ?_⟩
    rw [k11] at hp
    rcases mem_dset (x := p.1) (y := p.2) hp with ⟨-, hp⟩ | hp
    · exact ⟨e, x, by rw [k4, hp]; simp, k3⟩
    · obtain ⟨mo1, g1, g2⟩ := h
      rw [hm0] at g1; cases g1
      obtain ⟨e', x', g3, g4⟩ := g2 p hp
      exact ⟨e', x', hl.es _ _ g3, g4⟩
  | setValue p v unit =>
    refine h.le hl fun mo hmo => ?_
    simp only [Cmd.run, PyM.bind_ok] at hr
    obtain ⟨x, w2, h1, v', w3, h2, h3⟩ := hr
    obtain rfl : w2 = w := by simp only [lookupM, Prod.mk.injEq] at h1; exact h1.2.symm
    obtain rfl : w3 = w2 := eval_same h2
    rcases setValueM_run x.1 v' unit w3 with ⟨e, he⟩ | ⟨q, q', _, _, he⟩
    · rw [he] at h3; cases h3
    · rw [he, Prod.mk.injEq] at h3
      obtain ⟨-, rfl⟩ := h3
      exact ⟨mo, hmo, rfl⟩
  | distribute p =>
    refine h.le hl fun mo hmo => ?_
    simp only [Cmd.run, PyM.bind_ok] at hr
    obtain ⟨x, w2, h1, h3⟩ := hr
    obtain rfl : w2 = w := by simp only [lookupM, Prod.mk.injEq] at h1; exact h1.2.symm
    rcases distributeM_run x.1 w2 with ⟨e, he⟩ | ⟨q, _, he⟩
    · rw [he] at h3; cases h3
    · rw [he, Prod.mk.injEq] at h3
      obtain ⟨-, rfl⟩ := h3
      exact ⟨mo, hmo, rfl⟩
  | fail e => cases hr

theorem Resid.run {m : MRef} {l : List Cmd} (hl : ∀ c ∈ l, resOnly c) {w w' : World} (h : Resid w m) (hr : each l (Cmd.run m) w = (.ok (), w')) : Resid w' m := by
  induction l generalizing w with
  | nil => simp only [each_nil, PyM.pure, Prod.mk.injEq, true_and] at hr; subst hr; exact h
  | cons c t ih =>
    rw [PyM.each_cons, PyM.bind_ok] at hr
    obtain ⟨_, w1, h1, h2⟩ := hr
    exact ih (fun c hc => hl c (by simp [hc])) (h.step (hl c (by simp)) h1) h2

theorem mixer_resOnly (v : View) : ∀ c ∈ mixerInit v, resOnly c := by
  have hf : ∀ l : List String, ∀ c ∈ l.flatMap fracVars, resOnly c := by
    intro l c hc
    obtain ⟨p, _, hc⟩ := List.mem_flatMap.1 hc
    unfold fracVars at hc
    split at hc <;> simp at hc
    · rcases hc with rfl | rfl | rfl | rfl <;> trivial
    · subst hc; trivial
  have hp : ∀ l : List String, ∀ c ∈ l.flatMap mixerPhase, resOnly c := by
    intro l c hc
    obtain ⟨p, _, hc⟩ := List.mem_flatMap.1 hc
    simp only [mixerPhase, List.mem_cons, List.not_mem_nil, or_false] at hc
    rcases hc with rfl | rfl <;> trivial
  have hs : ∀ c ∈ mixerSums v.names, resOnly c := by
    intro c hc
    simp only [mixerSums, List.mem_cons, List.not_mem_nil, or_false] at hc
    rcases hc with rfl | rfl | rfl | rfl <;> cases v.names <;> trivial
  intro c hc
  simp only [mixerInit, List.mem_append] at hc
  rcases hc with (((hc | hc) | hc) | hc) | hc
  · split at hc
    · exact hf _ c hc
    · cases hc
  · simp only [mixerFluxes, ndots, mdots, List.mem_append, List.mem_cons, List.not_mem_nil, or_false] at hc
    rcases hc with (((rfl | rfl) | rfl) | (rfl | rfl)) | rfl <;> trivial
  · split at hc
    · exact hs c hc
    · cases hc
  · split at hc
    · exact hp _ c hc
    · cases hc
  · simp only [mixerRest, List.mem_cons, List.not_mem_nil, or_false] at hc
    rcases hc with rfl | rfl | rfl | rfl | rfl | rfl | rfl | rfl | rfl <;> trivial

/-- What an attribute of the model itself holds. -/
theorem lookup_own {w : World} {m : MRef} {a : String} {r : Ref} {y : Quantity} (h : w.lookup m { attr := a } = .ok (r, y)) :
    ∃ mo, w.ms[m]? = some mo ∧ dget mo.attrs a = some (.qty r) ∧ w.qs[r]? = some y := by
  simp only [World.lookup] at h
  split at h
  · cases h
  next mo hm =>
  split at h
  · cases h
  · cases h
  next r' ha =>
  split at h
  · cases h
  next q' hq =>
  cases h
  exact ⟨mo, hm, ha, hq⟩

section
variable {K : Type} [Field K] [LinearOrder K]

/-- C115 for mixers and splitters: create a mixer, do anything else but state other equations under the names of its own, resolve the problem and run a simulation.
If the models of the problem only state equations when they are called and the libraries are right when they report success, the reported values obey the balances
of the mixer. -/
theorem solved_mixer {ext : Ext K} {I : Interp K} (hsound : Sloth.Spec.Sound ext I (· = 0)) {w0 : World} (hw : Reachable w0) (name description : String) (v : View)
    (hn : v.names.Nodup) (hi : ∀ p ∈ v.names, Spec.PhaseName p) (hv : v.count ≥ 2 → v.names.length > 1) :
    ∃ m w1, newUnit .mixer name description (some v) w0 = (.ok m, w1) ∧ ∀ ops : List Op, Sloth.Spec.Stating (history ops w1) →
      m ∈ dvalues (history ops w1).pr.models →
      (∀ mo1 mo, w1.ms[m]? = some mo1 → (history ops w1).ms[m]? = some mo → ∀ p ∈ mo1.eqns, p ∈ mo.eqns) →
      ∀ (s s' : SimWorld K) (b : Block) (i : SRef) (a : RunArgs), resolve (history ops w1) = (.ok (), s.w) → s.w.pr.block = some b →
      (b.problemType = some .linear ∨ b.problemType = some .nonlinear) → runSimulation ext I i a s = (.ok (), s') →
      ∃ o d, s'.sims[i]? = some o ∧ o.output = some (.dict d) ∧ ∀ ρ : Atom → K, Spec.Reported d ρ → ∀ X, X = (fun a => ρ (.v (a ++ "_" ++ name))) →
        X "ndot_in" = X "ndot_out" ∧ X "mdot_in" = X "mdot_out" ∧ (v.count ≥ 2 → Spec.Mixed X v.names) ∧
          (v.names.length > 1 → Spec.PhasesKept X v.names.dropLast) ∧ X "T_out" = X "T_in" ∧ X "P_out" = X "P_in" ∧
          X "ndot_out" * X "H_out" = X "ndot_in" * X "H_in" := by
  obtain ⟨m, w1, hnew, hbal⟩ := mixer_balances I hw name description v hn hi hv
  refine ⟨m, w1, hnew, fun ops hp hm hkeep s s' b i a hres hb hk h => ?_⟩
  obtain ⟨-, hsolves⟩ := hbal [] w1 rfl
  obtain ⟨mo1, g1, g2⟩ := newUnit_body hw hnew
  obtain ⟨mo, g3, g4⟩ := (history_le ops w1).ms m mo1 g1
  have hbody : mo.body.eqns = [] := by rw [g4.body, g2]; rfl
  have hres1 : Resid w1 m := by
    simp only [newUnit] at hnew
    rw [PyM.bind_of_ok (newModel_ok name description _ hw), PyM.bind_ok] at hnew
    obtain ⟨_, w2, h1, h2⟩ := hnew
    simp only [PyM.pure, Prod.mk.injEq, Except.ok.injEq] at h2
    obtain ⟨rfl, rfl⟩ := h2
    exact Resid.run (l := Kind.init v .mixer) (mixer_resOnly v)
      ⟨{ name := name, description := description, body := { eqns := Kind.eqs v .mixer }, ports := 0 }, by simp, fun p hp => by cases hp⟩ h1
  obtain ⟨o, d, ho, hout, hsol⟩ := stored_solved hsound (unit_reachable hw hnew ops) hres hp hb hk h hm g3 hbody
  refine ⟨o, d, ho, hout, fun ρ hρ X hX => (hsolves ρ X hX).1 ?_⟩
  intro mo' hmo' p hp'
  rw [g1] at hmo'; cases hmo'
  obtain ⟨mo2, k1, k2⟩ := hres1
  rw [g1] at k1; cases k1
  obtain ⟨e, x, k3, k4⟩ := k2 p hp'
  obtain ⟨nd, z, z1, z2, rfl⟩ := hsol ρ hρ p (hkeep mo1 mo g1 g3 p hp') e x ((history_le ops w1).es _ _ k3) k4
  exact ⟨e, nd, k3, z1, z2⟩

/-- Finding: the equations of a mixer are stated before values can be given to its quantities, and values given later do not enter them.  If water enters a mixer at
temperature 300, its equations have a solution in which it leaves at 0; those of a pump have not. -/
theorem mixer_ignores_values [CharZero K] (I : Interp K) :
    (∃ m w1 w2, newUnit .mixer "M" "" (some Ex.water) World.init = (.ok m, w1) ∧ each [("T_in", 300)] (fun p => setFloat m p.1 p.2) w1 = (.ok (), w2) ∧
      Model.call m w2 = (.ok (), w2) ∧ ∃ ρ : Atom → K, Spec.Solves I w2 m ρ ∧ ρ (.v "T_in_M") = 0 ∧ ρ (.v "T_out_M") = 0) ∧
    ∃ m w1 w2 w3, newUnit .pump "M" "" (some Ex.water) World.init = (.ok m, w1) ∧ each [("T_in", 300)] (fun p => setFloat m p.1 p.2) w1 = (.ok (), w2) ∧
      Model.call m w2 = (.ok (), w3) ∧ ∀ ρ : Atom → K, Spec.Fits w3 m ρ → Spec.Solves I w3 m ρ → ρ (.v "T_out_M") = 300 := by
  have hset : ((newUnit .mixer "M" "" (some Ex.water) >>= fun m => each [("T_in", 300)] fun p => setFloat m p.1 p.2) World.init).1.toOption = some () := by decide +kernel
  constructor
  · obtain ⟨m, w1, h1, h2⟩ := mixer_balances I init_reachable "M" "" Ex.water (by decide +kernel) (by decide +kernel) (by decide +kernel)
    rw [PyM.bind_of_ok h1] at hset
    rcases hr : each [("T_in", (300 : Rat))] (fun p => setFloat m p.1 p.2) w1 with ⟨e | u, w2⟩
    · rw [hr] at hset; cases hset
    · obtain ⟨h3, h4⟩ := h2 [("T_in", 300)] w2 (by rw [hr])
      refine ⟨m, w1, w2, h1, hr, h3, fun _ => 0, (h4 (fun _ => 0) _ rfl).2 ?_, rfl, rfl⟩
      refine ⟨rfl, rfl, fun hc => absurd hc (by decide +kernel), fun hc => absurd hc (by decide +kernel), rfl, rfl, rfl⟩
  · obtain ⟨m, w1, w2, w3, h1, h2, h3, h4⟩ := pump_balances (K := K) I init_reachable "M" "" Ex.water (by decide +kernel) (by decide +kernel) [("T_in", 300)] (by decide +kernel)
    refine ⟨m, w1, w2, w3, h1, h2, h3, fun ρ hf hs => ?_⟩
    have ht : (((newUnit .pump "M" "" (some Ex.water) >>= fun m => each [("T_in", 300)] (fun p => setFloat m p.1 p.2) >>= fun _ => Model.call m >>= fun _ =>
        lookupM m { attr := "T_in" }) World.init).1.toOption.map fun x => (x.2.name, x.2.isSpecified, x.2.value)) = some ("T_in_M", true, 300) := by decide +kernel
    rw [PyM.bind_of_ok h1, PyM.bind_of_ok h2, PyM.bind_of_ok h3] at ht
    simp only [lookupM, Option.map_eq_some_iff, Prod.mk.injEq] at ht
    obtain ⟨⟨r, y⟩, k1, k2, k3, k4⟩ := ht
    have hT : ρ (.v "T_out_M") = ρ (.v "T_in_M") := ((h4 ρ hf _ rfl).1 hs).2.2.2.2.1
    rw [hT]
    cases hl : w3.lookup m { attr := "T_in" } with
    | error e => rw [hl] at k1; cases k1
    | ok x =>
      rw [hl] at k1
      simp only [Except.toOption, Option.some.injEq] at k1
      subst k1
      obtain ⟨mo, g1, g2, g3⟩ := lookup_own hl
      have := hf mo g1 "T_in" r y g2 g3 k3
      rw [k2, k4] at this
      rw [this]; norm_num
/-! ## A mixer that is solved -/

/-- What happens to a mixer for water after it is made: equations for what goes in are added, and the problem is made. -/
def Ex.mixing : List Op := 
  [("ndot_in", 2), ("mdot_in", 3), ("H_in", 5), ("P_in", 7), ("T_in", 11)].map
    (fun p => Op.cmd 0 (.eqn "" (p.1 ++ "_feed") "" (.res (.binN .sub (q p.1) p.2)) false)) ++ [.call 0, .addModels (.leaf 0)]

/-- The mixer has been made. -/
def Ex.mixMade : World := (newUnit .mixer "M" "" (some Ex.water) World.init).2

/-- A library that solves this system and no other. -/
def Ex.mixLib : Ext Rat := { Sloth.Ex.ext with
  symSys := fun _ names es _ =>
    let v := fun a => Sym.atom (.v (a ++ "_M"))
    if names = ["ndot_in_M", "ndot_out_M", "mdot_in_M", "mdot_out_M", "T_in_M", "T_out_M", "P_in_M", "P_out_M", "H_in_M", "H_out_M"] ∧
      es.map (·.expr) = [.sub (v "ndot_in") (v "ndot_out"), .sub (v "mdot_in") (v "mdot_out"), .sub (v "T_out") (v "T_in"), .sub (v "P_out") (v "P_in"),
        .sub (.mul (v "ndot_out") (v "H_out")) (.mul (v "ndot_in") (v "H_in")),
        .sub (v "ndot_in") (.num 2), .sub (v "mdot_in") (.num 3), .sub (v "H_in") (.num 5), .sub (v "P_in") (.num 7), .sub (v "T_in") (.num 11)]
    then .ok ([2, 2, 3, 3, 11, 11, 7, 7, 5, 5], true) else .error .valueError
  linSolve := fun _ _ => .error .valueError
  spSolve := fun _ _ => .error .valueError }

theorem Ex.mixLib_sound : Sloth.Spec.Sound Ex.mixLib Sloth.Ex.ratI (· = 0) := by
  refine ⟨fun m names es g x hx => ?_, (fun _ _ _ h => by simp [Ex.mixLib] at h), (fun _ _ _ h => by simp [Ex.mixLib] at h)⟩
  simp only [Ex.mixLib] at hx
  split at hx
  · next hc =>
    obtain ⟨rfl, he⟩ := hc
    simp only [Except.ok.injEq, Prod.mk.injEq, and_true] at hx
    subst hx
    refine ⟨rfl, fun ρ h s hs => ⟨0, ?_, rfl⟩⟩
    have h0 := h 0 _ rfl
    have h1 := h 1 _ rfl
    have h2 := h 2 _ rfl
    have h3 := h 3 _ rfl
    have h4 := h 4 _ rfl
    have h5 := h 5 _ rfl
    have h6 := h 6 _ rfl
    have h7 := h 7 _ rfl
    have h8 := h 8 _ rfl
    have h9 := h 9 _ rfl
    simp only [List.getElem?_cons_zero, List.getElem?_cons_succ, Option.some.injEq] at h0 h1 h2 h3 h4 h5 h6 h7 h8 h9
    have hm : s.expr ∈ es.map (·.expr) := List.mem_map_of_mem hs
    rw [he] at hm
    generalize s.expr = e at hm
    simp only [List.mem_cons, List.not_mem_nil, or_false] at hm
    rcases hm with rfl | rfl | rfl | rfl | rfl | rfl | rfl | rfl | rfl | rfl <;>
      simp [Sym.eval, ← h0, ← h1, ← h2, ← h3, ← h4, ← h5, ← h6, ← h7, ← h8, ← h9] <;> norm_num
  · cases hx

/-- The resolved problem, with a simulation of it. -/
def Ex.mixReady : SimWorld Rat :=
  { w := (resolve (history Ex.mixing Ex.mixMade)).2, sims := (setConfigurations 0 [] none none ({ w := World.init, sims := [{ name := "s" }] } : SimWorld Rat)).2.sims }

/-- The hypotheses are met, and a mixer that gets water at temperature 11 delivers it at 11. -/
theorem solved_mixer_use : newUnit .mixer "M" "" (some Ex.water) World.init = (.ok 0, Ex.mixMade) ∧ Sloth.Spec.Stating (history Ex.mixing Ex.mixMade) ∧
    0 ∈ dvalues (history Ex.mixing Ex.mixMade).pr.models ∧
    (∀ mo1 mo, Ex.mixMade.ms[0]? = some mo1 → (history Ex.mixing Ex.mixMade).ms[0]? = some mo → ∀ p ∈ mo1.eqns, p ∈ mo.eqns) ∧ resolve (history Ex.mixing Ex.mixMade) = (.ok (), Ex.mixReady.w) ∧
    (∃ b, Ex.mixReady.w.pr.block = some b ∧ b.problemType = some .nonlinear) ∧
    ∃ s' o d, runSimulation Ex.mixLib Sloth.Ex.ratI 0 {} Ex.mixReady = (.ok (), s') ∧ s'.sims[0]? = some o ∧ o.output = some (.dict d) ∧ dget d "T_out_M" = some 11 := by
  have hnew : newUnit .mixer "M" "" (some Ex.water) World.init = (.ok 0, Ex.mixMade) := by
    have h : (newUnit .mixer "M" "" (some Ex.water) World.init).1.toOption = some 0 := by decide +kernel
    unfold Ex.mixMade
    generalize newUnit .mixer "M" "" (some Ex.water) World.init = r at h ⊢
    obtain ⟨r, w⟩ := r
    cases r with
    | ok u => simp only [Except.toOption, Option.some.injEq] at h; rw [h]
    | error e => cases h
  have hw : Ex.mixReady.w = (resolve (history Ex.mixing Ex.mixMade)).2 := by simp only [Ex.mixReady]
  have hmods : dvalues (history Ex.mixing Ex.mixMade).pr.models = [0] := by decide +kernel
  refine ⟨hnew, ?_, by rw [hmods]; simp, ?_, ?_, ?_, ?_⟩
  · intro m hm
    rw [hmods, List.mem_singleton] at hm
    subst hm
    have : ((history Ex.mixing Ex.mixMade).ms[0]?.map fun mo => mo.inlets) = some [] := by decide +kernel
    obtain ⟨mo, h1, h2⟩ := Option.map_eq_some_iff.1 this
    exact unit_stating (.inr (.inr rfl)) init_reachable (by decide +kernel) hnew Ex.mixing h1 h2
  · intro mo1 mo h1 h2 p hp
    have : ((Ex.mixMade.ms[0]?.bind fun mo1 => (history Ex.mixing Ex.mixMade).ms[0]?.map fun mo => mo1.eqns.all fun p => mo.eqns.contains p)) = some true := by decide +kernel
    rw [h1, Option.bind_some, h2, Option.map_some, Option.some.injEq, List.all_eq_true] at this
    simpa using this p hp
  · rw [hw]
    have h : (resolve (history Ex.mixing Ex.mixMade)).1.toOption = some () := by decide +kernel
    generalize resolve (history Ex.mixing Ex.mixMade) = r at h ⊢
    obtain ⟨r, w⟩ := r
    cases r with
    | ok u => rfl
    | error e => cases h
  · have : (Ex.mixReady.w.pr.block.map fun b => b.problemType) = some (some .nonlinear) := by decide +kernel
    exact Option.map_eq_some_iff.1 this
  · have h : (runSimulation Ex.mixLib Sloth.Ex.ratI 0 {} Ex.mixReady).1.toOption = some () := by decide +kernel
    have h2 : ((runSimulation Ex.mixLib Sloth.Ex.ratI 0 {} Ex.mixReady).2.sims[0]?.bind fun o => match o.output with
      | some (.dict d) => dget d "T_out_M"
      | _ => none) = some 11 := by decide +kernel
    generalize runSimulation Ex.mixLib Sloth.Ex.ratI 0 {} Ex.mixReady = r at h h2 ⊢
    obtain ⟨r, s'⟩ := r
    cases r with
    | error e => cases h
    | ok u =>
      obtain ⟨o, ho, h2⟩ := Option.bind_eq_some_iff.1 h2
      cases hout : o.output with
      | none => rw [hout] at h2; cases h2
      | some out =>
        rw [hout] at h2
        cases out with
        | dict d => exact ⟨s', o, d, rfl, ho, hout, h2⟩
        | _ => cases h2

end
end Lib
end Sloth
