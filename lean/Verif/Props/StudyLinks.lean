import Verif.Props.SimLinks
import Verif.Props.Usage
import Verif.Props.Studies

/-!
# Studies meet existing objects only, and end with listed exceptions only (C111)
-/

namespace Sloth
open PyS Spec

section
variable {K : Type} [Field K] [LinearOrder K] {ext : Ext K}

/-! ## What a trial keeps -/

omit [Field K] [LinearOrder K] in
theorem During.onward {s s' : SimWorld K} (h : During s s') : Onward s.w s'.w := by
  have h1 := World.Le.refl s.w
  have h2 := sameInlets_elem.refl s.w
  refine ⟨⟨by rw [h.qs], fun r q hq => by rw [h.qs]; exact h1.qs r q hq, fun r e he => by rw [h.es]; exact he, fun m mo hm => by rw [h.ms]; exact h1.ms m mo hm, by rw [h.ps],
      fun i p hp => by rw [h.ps]; exact h1.pe i p hp⟩, fun m mo hm => ?_⟩
  rw [h.ms]
  exact h2 m mo hm

omit [Field K] [LinearOrder K] in
theorem During.models {s s' : SimWorld K} (h : During s s') : s'.w.pr.models = s.w.pr.models := by
  have := congrArg ProblemObj.models h.pr
  exact this

/-- The state after some calls of a trial: the objects of the start are still there, no simulation has been made, the models are those of the start. -/
structure Trial (s0 s : SimWorld K) : Prop where
  sound : SimSound s
  lists : s0.sizes.l ≤ s.sizes.l
  doms : s0.sizes.d ≤ s.sizes.d
  sims : s.sizes.s = s0.sizes.s
  onward : Onward s0.w s.w
  models : s.w.pr.models = s0.w.pr.models

theorem Trial.refl {s : SimWorld K} (h : SimSound s) : Trial s s := ⟨h, le_refl _, le_refl _, rfl, onward_preRel.refl _, rfl⟩

theorem Trial.during {s0 s s' : SimWorld K} (h : Trial s0 s) (hd : During s s') : Trial s0 s' :=
  ⟨hd.sound h.sound, h.lists.trans (le_of_eq (congrArg SSizes.l hd.sizes).symm), h.doms.trans (le_of_eq (congrArg SSizes.d hd.sizes).symm), (congrArg SSizes.s hd.sizes).trans h.sims,
    onward_preRel.trans _ _ _ h.onward hd.onward, hd.models.trans h.models⟩

theorem models_stable : Stable { pr := fun k => k = .resolve } (fun w w' => w'.pr.models = w.pr.models) :=
  prRel_stable (fun k => k = .resolve) (fun p p' => p'.models = p.models) (fun _ => rfl) (fun _ _ _ h h' => h'.trans h) (by
    intro w k p hk hp
    cases hp <;> first | rfl | cases hk)

/-- A call on models or the problem, other than adding models and setting inlets. -/
theorem Trial.base (I : Interp K) {s0 s : SimWorld K} (h : Trial s0 s) {o : Op} (ho : Uses s.w.sizes o) (hi : o.Allowed { inl := False, pr := fun k => k = .resolve }) :
    Trial s0 ((SOp.base (K := K) o).exec ext I s).2 := by
  have hr : ∀ {R : World → World → Prop} {A : Allow}, Stable A R → o.Allowed A → R s.w (o.run s.w).2 := fun S ha => S.op o ha s.w
  have h1 : o.Allowed {} := by cases o <;> simp [Op.Allowed]
  have h2 : o.Allowed { inl := False } := by cases o <;> first | exact hi | simp [Op.Allowed]
  have h3 : o.Allowed { pr := fun k => k = .resolve } := by cases o <;> first | exact hi | simp [Op.Allowed]
  exact ⟨(sop_sound I h.sound (o := .base o) ho).1, h.lists, h.doms, h.sims, onward_preRel.trans _ _ _ h.onward ⟨hr le_stable h1, hr (sameInlets_elem.stable trivial) h2⟩,
    (hr models_stable h3).trans h.models⟩

omit [Field K] [LinearOrder K] in
theorem pys_bind {α β : Type} (x : PyS K α) (f : α → PyS K β) (s : SimWorld K) :
    (x >>= f) s = match x s with | (.ok a, s') => f a s' | (.error e, s') => (.error e, s') := rfl

/-- Where a trial is, this call keeps all this and raises only these exceptions. -/
def Tries {α : Type} (s0 : SimWorld K) (E : Err → Prop) (x : PyS K α) : Prop := ∀ s, Trial s0 s → Trial s0 (x s).2 ∧ ∀ e, (x s).1 = .error e → E e

namespace Tries
variable {α β : Type} {s0 : SimWorld K} {E : Err → Prop}

theorem bind {x : PyS K α} {f : α → PyS K β} (hx : Tries s0 E x) (hf : ∀ a, Tries s0 E (f a)) : Tries s0 E (x >>= f) := fun s hs => by
  have h := pys_bind x f s
  obtain ⟨h1, h2⟩ := hx s hs
  rcases hr : x s with ⟨e | a, s1⟩
  · rw [hr] at h h1 h2
    rw [h]
    exact ⟨h1, fun e' he => by cases he; exact h2 e rfl⟩
  · rw [hr] at h h1
    rw [h]
    exact hf a s1 h1

theorem mono {E' : Err → Prop} {x : PyS K α} (hx : Tries s0 E x) (h : ∀ e, E e → E' e) : Tries s0 E' x := fun s hs => ⟨(hx s hs).1, fun e he => h e ((hx s hs).2 e he)⟩

theorem ret (a : α) : Tries s0 E (PyS.pure a) := fun _ hs => ⟨hs, fun e he => by cases he⟩
theorem raise {e : Err} (he : E e) : Tries (α := α) s0 E (PyS.raise e) := fun _ hs => ⟨hs, fun e' h => by cases h; exact he⟩

/-- A part that leaves models alone. -/
theorem during {Q : α → Prop} {x : PyS K α} (h : ∀ s, Trial s0 s → Runs s E Q x) : Tries s0 E x := fun s hs =>
  ⟨hs.during (h s hs s (.refl hs.sound.linked)).1, (h s hs s (.refl hs.sound.linked)).2.2⟩

theorem prog {Q A R : Type} {f : Q → PyS K A} (hf : ∀ q, Tries s0 E (f q)) : (p : Prog Q A R) → (∀ e, FailsWith e p → E e) → Tries s0 E (p.run f)
  | .ret a, _ => ret a
  | .fail e, h => raise (h e rfl)
  | .ask q k, h => bind (hf q) fun a => prog hf (k a) fun e he => h e ⟨a, he⟩
end Tries

omit [Field K] [LinearOrder K] in
/-- What a model may raise stays the same. -/
theorem ofModel_onward {w w' : World} (h : Onward w w') (hp : w.pr.WF w) (hm : w'.pr.models = w.pr.models) {e : Err}
    (he : ∃ m ∈ dvalues w'.pr.models, ∃ mo, w'.ms[m]? = some mo ∧ e ∈ ofModel mo) : ∃ m ∈ dvalues w.pr.models, ∃ mo, w.ms[m]? = some mo ∧ e ∈ ofModel mo := by
  obtain ⟨m, hmem, mo', hmo', hin⟩ := he
  rw [hm] at hmem
  refine ⟨m, hmem, ?_⟩
  obtain ⟨x, hx, rfl⟩ := List.mem_map.mp hmem
  obtain ⟨mo, hmo, _⟩ := hp.models.2 x hx
  obtain ⟨m1, hm1, hi⟩ := h.2 _ mo hmo
  obtain ⟨m2, hm2, hle⟩ := h.1.ms _ mo hmo
  rw [hmo'] at hm1 hm2
  cases hm1
  cases hm2
  refine ⟨mo, hmo, ?_⟩
  unfold ofModel at hin ⊢
  rwa [hi, hle.body] at hin

end
end Sloth

namespace Sloth.Opt
open Sloth PyS

section
variable {K : Type} [Field K] [LinearOrder K] {ext : Ext K}

namespace Spec
open Sloth.Spec

/-- What the objective function of the script can raise of itself, besides exceptions of libraries and of the models. -/
def trialErrs : List Err := [.typeError, .keyError, .attributeError, .unexpectedValue, .indexError, .valueError, .numerical, .absentRequiredObject, .nameError,
  .exception "Error. Ill-formed input for domain register", .exception "OVER", .exception "UNDER"]

/-- All it can raise. -/
def TrialErr (ext : Ext K) (s : SimWorld K) (e : Err) : Prop :=
  LibErr ext e ∨ (∃ m ∈ dvalues s.w.pr.models, ∃ mo, s.w.ms[m]? = some mo ∧ e ∈ ofModel mo) ∨ e ∈ trialErrs

end Spec
open Sloth.Spec

theorem tries_assign (I : Interp K) {s0 : SimWorld K} (read : K → Rat) : (names : List String) → (x : List K) → Tries s0 (Spec.TrialErr ext s0) (assign read names x)
  | [], _ => .ret ()
  | _ :: _, [] => .raise (.inr (.inr (by decide)))
  | n :: ns, v :: xs => by
    have hstep : Tries s0 (Spec.TrialErr ext s0) (simItem (K := K) n >>= fun r => ofWorld (setValueM r (.float (read v)) none)) := fun s hs => by
      have h1 := pys_bind (simItem (K := K) n) (fun r => ofWorld (setValueM r (.float (read v)) none)) s
      cases hb : s.w.pr.block with
      | none =>
        have h2 : simItem (K := K) n s = (.error .attributeError, s) := by
          show (getBlock >>= fun b => lift (dgetE b.parameterDict n)) s = _
          have h3 : (getBlock (K := K)) s = (.error .attributeError, s) := by unfold getBlock; rw [hb]
          rw [pys_bind, h3]
        rw [h1, h2]
        exact ⟨hs, fun e he => by cases he; exact .inr (.inr (by decide))⟩
      | some b =>
        have h2 : simItem (K := K) n s = (dgetE b.parameterDict n, s) := by
          show (getBlock >>= fun b => lift (dgetE b.parameterDict n)) s = _
          have h3 : (getBlock (K := K)) s = (.ok b, s) := by unfold getBlock; rw [hb]
          rw [pys_bind, h3]
          rfl
        rw [h1, h2]
        rcases hd : dgetE b.parameterDict n with e | r
        · refine ⟨hs, fun e' he => ?_⟩
          cases he
          have := List.mem_singleton.mp (errs_dgetE _ _ _ hd)
          subst this
          exact .inr (.inr (by decide))
        · have hr : r < s.w.sizes.q := (hs.sound.linked.w.pr.block b hb).parameterDict r (by
            unfold dgetE at hd
            split at hd
            · rename_i v hv
              cases hd
              exact List.mem_map_of_mem (mem_of_dget hv)
            · cases hd)
          have ht := hs.base (ext := ext) I (o := .setValue r (.float (read v)) none) hr (by simp [Op.Allowed])
          refine ⟨ht, fun e he => ?_⟩
          have := (sop_sound (ext := ext) I hs.sound (o := .base (.setValue r (.float (read v)) none)) hr).2 e he
          cases this
    have h : assign read (n :: ns) (v :: xs) = (simItem (K := K) n >>= fun r => ofWorld (setValueM r (.float (read v)) none)) >>= fun _ => assign read ns xs := by
      funext s
      show (simItem n >>= fun r => ofWorld (setValueM r (.float (read v)) none) >>= fun _ => assign read ns xs) s = _
      simp only [Bind.bind, PyS.bind]
      cases simItem (K := K) n s with
      | mk r s' => cases r <;> rfl
    rw [h]
    exact .bind hstep fun _ => tries_assign I read ns xs

theorem ofRun_trial (k : Option ProblemKind) (b : Bool) : ∀ e ∈ ofRun k b, e ∈ Spec.trialErrs := by
  cases b <;> rcases k with _ | k <;> (try cases k) <;> decide

/-- An evaluation of the objective function of the script. -/
theorem tries_usage (I : Interp K) {s0 : SimWorld K} (h0 : SimSound s0) (read : K → Rat) (names : List String) (target : String) {i : SRef} (hi : i < s0.sizes.s) {c : Option Conf}
    (hc : ∀ x, c = some x → ConfIn s0.sizes x) (x : List K) : Tries s0 (Spec.TrialErr ext s0) (usageObjective ext I read names target (some i) c x) := by
  have hin : ∀ {s}, Trial s0 s → i < s.sizes.s := fun h => by rw [h.sims]; exact hi
  show Tries s0 _ (assign read names x >>= fun _ => ofWorld resolve >>= fun _ => setConfigurations i [] none c >>= fun _ => runSimulation ext I i {} >>= fun _ =>
    Sloth.getResults i .dict >>= fun r => match r with
    | .dict d => lift (dgetE d target) >>= fun v => PyS.pure [v]
    | _ => PyS.raise .typeError)
  refine .bind (tries_assign I read names x) fun _ => .bind (fun s hs => ⟨hs.base (ext := ext) I (o := .resolve) trivial (by simp [Op.Allowed]), fun e he => ?_⟩) fun _ =>
    .bind (.during (Q := Anyv) fun s hs => ?_) fun _ => ?_
  · have := (sop_sound (ext := ext) I hs.sound (o := .base .resolve) trivial).2 e he
    exact .inr (.inl (ofModel_onward hs.onward h0.problem hs.models this))
  · refine .bind .get fun s1 _ => .bind (Q := ConfIn s.sizes) (.lift (fun e he => ?_) fun c' hc' => ?_) fun c' hc' => .bind (.getSim (hin hs)) fun o hO => .setSim i ⟨?_, hO.domain⟩
    · rcases configure_errs he with rfl | ⟨rfl, _⟩
      · exact .inr (.inr (by decide))
      · exact .inr (.inr (by decide))
    · exact configure_ok hs.sound.linked.default (fun p hp => by cases hp) (fun x hx => by cases hx)
        (fun y hy p hp => ⟨valIn_mono hs.lists hs.doms (hc y hy p hp).1, (hc y hy p hp).2⟩) hc'
    · intro y hy; cases hy; exact hc'
  · have hend : ∀ {k b} {e : Err}, Ends ext (ofRun k b) e → Spec.TrialErr ext s0 e := fun h => h.imp id fun h => .inr (ofRun_trial _ _ _ h)
    refine .during (Q := Anyv) fun s hs => .bind ((runs_run I (hin hs) {}).mono fun e he => hend he) fun _ hk => .bind (runs_getResults (fun e he => .inr (.inr
      ((show ∀ e ∈ [Err.typeError, .keyError, .attributeError], e ∈ Spec.trialErrs by decide) e he))) (fun h => absurd h hk) (hin hs) (by simp)) fun r _ => ?_
    split
    · exact .bind (.liftE (errs_dgetE _ _) fun e he => by rw [List.mem_singleton.mp he]; exact .inr (.inr (by decide))) fun _ _ => .ret trivial
    · exact .raise (.inr (.inr (by decide)))

/-! ## References that exist -/

namespace Spec

/-- The objects a study refers to exist; what its optimizer needs later is among its settings. -/
structure StudyIn (z : SSizes) (p : Nat) (o : Study K) : Prop where
  problem : o.problem < p
  sim : o.sim < z.s
  conf : ConfIn z o.simConf
  individuals : o.mechanism ≠ none → "number_of_individuals" ∈ dkeys o.conf

/-- The simulation a problem refers to exists. -/
structure ProbIn (z : SSizes) (p : Problem K) : Prop where
  sim : ∀ i, p.sim = some i → i < z.s
  conf : ∀ c, p.conf = some c → ConfIn z c

/-- Every reference leads to an object. -/
structure OLinked (w : World K) : Prop where
  s : SimLinked w.s
  opts : ∀ o ∈ w.opts, StudyIn w.s.sizes w.probs.length o
  probs : ∀ p ∈ w.probs, ProbIn w.s.sizes p

/-- The settings given exist. -/
def ConfArgIn (z : SSizes) : ConfArg → Prop
  | .file c | .dict c => ConfIn z c
  | _ => True

/-- A call whose arguments exist. -/
def OUses (w : World K) : Op K → Prop
  | .sim o => SUses w.s.sizes o
  | .newProblem _ _ _ _ s _ => ∀ i, s = some i → i < w.s.sizes.s
  | .call j | .setBounds j _ | .setDirection j _ => j < w.probs.length
  | .newStudy a => a.sim < w.s.sizes.s ∧ a.problem < w.probs.length ∧ ConfArgIn w.s.sizes a.simConf
  | .setConstraints i _ | .run i _ => i < w.opts.length
  | .setProblem i j => i < w.opts.length ∧ j < w.probs.length

/-- A session of such calls. -/
def OSensible (ext : Ext K) (I : Interp K) (lib : Lib K) : List (Op K) → World K → Prop
  | [], _ => True
  | o :: t, w => OUses w o ∧ OSensible ext I lib t (o.exec ext I lib w)

/-- How a call ends. -/
def outcome (ext : Ext K) (I : Interp K) (lib : Lib K) (w : World K) : Op K → Except Err Unit
  | .sim o => (o.exec ext I w.s).1
  | .newStudy a => (Study.init lib (ownConf w a.sim) a).map fun _ => ()
  | .run i a => (runOptimization lib i a w).1
  | _ => .ok ()

/-- The bounds describe a box. -/
def Box (b : Bounds K) : Prop := ∃ lo hi, Given b lo hi ∧ lo ≠ [] ∧ List.Forall₂ (· ≤ ·) lo hi

/-- What a run can end with, when the objective function can raise `F`. -/
def RunErr (lib : Lib K) (F : Err → Prop) (a : RunArgs) (o : Study K) (p : Problem K) (e : Err) : Prop :=
  (e = .absentRequiredObject ∧ (p.ready = false ∨ ∃ k, o.constraints = .dict k)) ∨
  (e = .indexError ∧ o.params = [] ∧ ∃ k, o.constraints = .dict k) ∨
  (e = .attributeError ∧ (o.mechanism = none ∨ (∃ q ∈ o.params, q = .other) ∨ (∃ k, o.constraints = .dict k) ∨ (a.graph = true ∧ a.log = false ∧ o.log = none))) ∨
  (e = .typeError ∧ o.constraints = .none) ∨
  (e = .valueError ∧ (¬Box o.constraints ∨ a.graph = true)) ∨
  (∃ n al lo hi v, FailsWith e (lib.evolve n al lo hi v a.frequency)) ∨ (a.graph = true ∧ ∃ n, lib.plot n = .error e) ∨ F e

/-- What a call can end with. -/
def OMayRaise (ext : Ext K) (lib : Lib K) (w : World K) (F : Problem K → Study K → Err → Prop) (e : Err) : Op K → Prop
  | .sim o => SMayRaise ext w.s e o
  | .newStudy a => (e = .absentRequiredObject ∧ (a.simConf = .none ∧ ownConf w a.sim = none ∨ a.simConf = .other ∨ a.conf = .other)) ∨ (e = .keyError ∧ ∃ c, a.conf = .file c) ∨
      (e = .unexpectedValue ∧ a.optimizer = .other) ∨ ∃ al, lib.algorithm al = .error e
  | .run i a => ∃ o p, w.opts[i]? = some o ∧ w.probs[o.problem]? = some p ∧ RunErr lib (F p o) a o p e
  | _ => False

/-- The objective function raises this at some point, in some state. -/
def Objects (p : Problem K) (o : Study K) (e : Err) : Prop := ∃ x s, (p.objective (some o.sim) (some o.simConf) x s).1 = .error e

end Spec

/-! ## Parts -/

theorem errs_checkParams (keys : List String) (ps : List Param) {e : Err} (h : checkParams keys ps = .error e) :
    e = .absentRequiredObject ∨ (e = .indexError ∧ ps = []) ∨ e = .attributeError := by
  cases ps with
  | nil => cases h; exact .inr (.inl ⟨rfl, rfl⟩)
  | cons p t =>
    cases p with
    | other => cases h
    | str s =>
      unfold checkParams at h
      simp only at h
      split_ifs at h
      cases h
      exact .inl rfl
    | quantity n =>
      have hg : ∀ l, Errs [.absentRequiredObject, .attributeError] (checkParams.go keys l) := fun l => by
        induction l with
        | nil => exact .ok _
        | cons q t ih =>
          cases q with
          | quantity n =>
            unfold checkParams.go
            split_ifs
            · exact ih
            · exact .err (by simp)
          | str s => exact .err (by simp)
          | other => exact .err (by simp)
      have := hg _ e h
      simp only [List.mem_cons, List.not_mem_nil, or_false] at this
      exact this.elim .inl fun h => .inr (.inr h)

theorem sane_err {o : Study K} {p : Problem K} {e : Err} (h : sane o p = .error e) :
    (e = .absentRequiredObject ∧ (p.ready = false ∨ ∃ k, o.constraints = .dict k)) ∨ (e = .indexError ∧ o.params = [] ∧ ∃ k, o.constraints = .dict k) ∨
      (e = .attributeError ∧ ∃ k, o.constraints = .dict k) := by
  have hr : (if p.ready then Except.ok () else Except.error Err.absentRequiredObject) = .error e → e = .absentRequiredObject ∧ p.ready = false := fun h => by
    split_ifs at h with hr
    cases h
    exact ⟨rfl, by simpa using hr⟩
  unfold sane at h
  cases hc : o.constraints with
  | dict k =>
    rw [hc] at h
    simp only at h
    rcases hk : checkParams k o.params with e' | u
    · rw [hk] at h
      cases h
      rcases errs_checkParams k _ hk with rfl | ⟨rfl, h⟩ | rfl
      · exact .inl ⟨rfl, .inr ⟨k, rfl⟩⟩
      · exact .inr (.inl ⟨rfl, h, k, rfl⟩)
      · exact .inr (.inr ⟨rfl, k, rfl⟩)
    · rw [hk] at h
      exact .inl ⟨(hr h).1, .inl (hr h).2⟩
  | none => rw [hc] at h; exact .inl ⟨(hr h).1, .inl (hr h).2⟩
  | flat l => rw [hc] at h; exact .inl ⟨(hr h).1, .inl (hr h).2⟩
  | nested l => rw [hc] at h; exact .inl ⟨(hr h).1, .inl (hr h).2⟩

theorem pgBounds_err {b : Bounds K} {e : Err} (h : pgBounds b = .error e) : (e = .typeError ∧ b = .none) ∨ (e = .valueError ∧ ¬Spec.Box b) := by
  have hbox : ¬Spec.Box b := fun ⟨lo, hi, h1⟩ => by
    rw [pgBounds_iff.mpr h1] at h
    cases h
  suffices hv : e = .typeError ∧ b = .none ∨ e = .valueError from hv.imp id fun h => ⟨h, hbox⟩
  unfold pgBounds at h
  rcases hd : declareSetBounds b with e' | l
  · rw [hd] at h
    cases h
    cases b with
    | none => cases hd; exact .inl ⟨rfl, rfl⟩
    | flat l => cases hd
    | nested l =>
      unfold declareSetBounds at hd
      simp only at hd
      split_ifs at hd
      cases hd
      exact .inr rfl
    | dict k => cases hd; exact .inr rfl
  · rw [hd] at h
    have h : (match l with
      | [lo, hi] => if lo.length = hi.length ∧ lo ≠ [] ∧ ((lo.zip hi).all fun p => decide (p.1 ≤ p.2)) = true then Except.ok (lo, hi) else Except.error Err.valueError
      | _ => Except.error Err.valueError) = .error e := h
    split at h
    · split_ifs at h
      cases h
      exact .inr rfl
    · cases h
      exact .inr rfl

theorem prepare_err {o : Study K} {b : Bounds K} (hn : o.mechanism ≠ none → "number_of_individuals" ∈ dkeys o.conf) {e : Err} (h : prepare o b = .error e) :
    (e = .attributeError ∧ (o.mechanism = none ∨ ∃ q ∈ o.params, q = .other)) ∨ (e = .typeError ∧ b = .none) ∨ (e = .valueError ∧ ¬Spec.Box b) := by
  unfold prepare at h
  split at h
  · cases h
    rename_i hm
    exact .inl ⟨rfl, .inl hm⟩
  · rename_i al hm
    rcases hp : paramNames o.params with e' | u
    · rw [hp] at h
      cases h
      unfold paramNames at hp
      split_ifs at hp with ha
      cases hp
      simp only [List.all_eq_true, decide_eq_true_eq] at ha
      push Not at ha
      exact .inl ⟨rfl, .inr ha⟩
    · rw [hp] at h
      obtain ⟨v, hv⟩ := Option.isSome_iff_exists.mp ((dget_isSome_iff o.conf _).mpr (hn (by rw [hm]; simp)))
      have hg : dgetE o.conf "number_of_individuals" = .ok v := by unfold dgetE; rw [hv]
      rw [hg] at h
      rcases hb : pgBounds b with e' | ⟨lo, hi⟩
      · rw [hb] at h
        cases h
        exact .inr (pgBounds_err hb)
      · rw [hb] at h
        cases h

theorem finish_err {lib : Lib K} {a : RunArgs} {o : Study K} {c : Champion K} {e : Err} (h : (finish lib a o c).1 = .error e) :
    a.graph = true ∧ ((e = .attributeError ∧ a.log = false ∧ o.log = none) ∨ e = .valueError ∨ ∃ n, lib.plot n = .error e) := by
  unfold finish at h
  rcases a with ⟨fr, lg, gr⟩
  cases gr with
  | false => simp at h
  | true =>
    refine ⟨rfl, ?_⟩
    simp only [if_true] at h
    have hg : ∀ l, graph lib l = .error e → (e = .attributeError ∧ l = none) ∨ e = .valueError ∨ ∃ n, lib.plot n = .error e := fun l hl => by
      unfold graph at hl
      split at hl
      · cases hl; exact .inl ⟨rfl, rfl⟩
      · cases hl; exact .inr (.inl rfl)
      · exact .inr (.inr ⟨_, hl⟩)
    split at h
    · rename_i e' hg'
      cases h
      rcases hg _ hg' with ⟨rfl, h⟩ | h
      · cases lg with
        | false => exact .inl ⟨rfl, rfl, by simpa using h⟩
        | true => simp at h
      · exact .inr h
    · cases h

/-- A run, when the objective function, started in the state, raises only `F`. -/
theorem run_err {lib : Lib K} {w : World K} {i : ORef} {a : RunArgs} (hw : Spec.OLinked w) (hi : i < w.opts.length) {F : Problem K → Study K → Err → Prop}
    (hF : ∀ (o : Study K) (p : Problem K), w.opts[i]? = some o → w.probs[o.problem]? = some p → ∀ (n : Nat) (al : Algo) (lo hi : List K) (v : CVal) (e : Err),
      ((lib.evolve n al lo hi v a.frequency).run (p.objective (some o.sim) (some o.simConf)) w.s).1 = .error e → FailsWith e (lib.evolve n al lo hi v a.frequency) ∨ F p o e)
    {e : Err} (h : (runOptimization lib i a w).1 = .error e) : ∃ o p, w.opts[i]? = some o ∧ w.probs[o.problem]? = some p ∧ Spec.RunErr lib (F p o) a o p e := by
  have ho : w.opts[i]? = some w.opts[i] := List.getElem?_eq_getElem hi
  have hin := hw.opts _ (List.getElem_mem hi)
  generalize w.opts[i] = o at ho hin
  obtain ⟨p, hp⟩ : ∃ p, w.probs[o.problem]? = some p := ⟨_, List.getElem?_eq_getElem hin.problem⟩
  refine ⟨o, p, ho, hp, ?_⟩
  unfold Spec.RunErr
  unfold runOptimization at h
  rw [ho] at h
  simp only at h
  rw [hp] at h
  simp only at h
  rcases hs : sane o p with e' | u
  · rw [hs] at h
    cases h
    rcases sane_err hs with h | h | ⟨h, k⟩
    · exact .inl h
    · exact .inr (.inl h)
    · exact .inr (.inr (.inl ⟨h, .inr (.inr (.inl k))⟩))
  rw [hs] at h
  simp only at h
  rcases hq : prepare o (install o p).bounds with e' | ⟨al, n, lo, up⟩
  · rw [hq] at h
    cases h
    rcases prepare_err hin.individuals hq with ⟨h, k | k⟩ | h | ⟨h, k⟩
    · exact .inr (.inr (.inl ⟨h, .inl k⟩))
    · exact .inr (.inr (.inl ⟨h, .inr (.inl k)⟩))
    · exact .inr (.inr (.inr (.inl h)))
    · exact .inr (.inr (.inr (.inr (.inl ⟨h, .inl k⟩))))
  rw [hq] at h
  simp only at h
  rcases hr : ((lib.evolve w.runs al lo up n a.frequency).run ((install o p).objective (install o p).sim (install o p).conf) w.s).1 with e' | c
  · rw [hr] at h
    cases h
    rcases hF o p ho hp w.runs al lo up n e hr with h | h
    · exact .inr (.inr (.inr (.inr (.inr (.inl ⟨_, _, _, _, _, h⟩)))))
    · exact .inr (.inr (.inr (.inr (.inr (.inr (.inr h))))))
  · rw [hr] at h
    obtain ⟨hg, h | h | h⟩ := finish_err h
    · exact .inr (.inr (.inl ⟨h.1, .inr (.inr (.inr ⟨hg, h.2⟩))⟩))
    · exact .inr (.inr (.inr (.inr (.inl ⟨h, .inr hg⟩))))
    · exact .inr (.inr (.inr (.inr (.inr (.inr (.inl ⟨hg, h⟩))))))

/-- A library routine that asks an objective function. -/
theorem prog_err {Q A R : Type} {f : Q → PyS K A} {e : Err} : (p : Prog Q A R) → (s : SimWorld K) → (p.run f s).1 = .error e → FailsWith e p ∨ ∃ x s', (f x s').1 = .error e
  | .ret a, _, h => by cases h
  | .fail e', _, h => by cases h; exact .inl rfl
  | .ask q k, s, h => by
    have h : ((f q >>= fun a => (k a).run f) s).1 = .error e := h
    rw [pys_bind] at h
    rcases hf : f q s with ⟨e' | a, s1⟩
    · rw [hf] at h
      cases h
      exact .inr ⟨q, s, by rw [hf]⟩
    · rw [hf] at h
      exact (prog_err (k a) s1 h).imp (fun h => ⟨a, h⟩) id

/-! ## Sessions -/

omit [Field K] [LinearOrder K] in
theorem studyIn_mono {z z' : SSizes} (hl : z.l ≤ z'.l) (hd : z.d ≤ z'.d) (hs : z.s ≤ z'.s) {n n' : Nat} (hn : n ≤ n') {o : Study K} (h : Spec.StudyIn z n o) : Spec.StudyIn z' n' o :=
  ⟨h.problem.trans_le hn, h.sim.trans_le hs, fun p hp => ⟨valIn_mono hl hd (h.conf p hp).1, (h.conf p hp).2⟩, h.individuals⟩

omit [Field K] [LinearOrder K] in
theorem probIn_mono {z z' : SSizes} (hl : z.l ≤ z'.l) (hd : z.d ≤ z'.d) (hs : z.s ≤ z'.s) {p : Problem K} (h : Spec.ProbIn z p) : Spec.ProbIn z' p :=
  ⟨fun i hi => (h.sim i hi).trans_le hs, fun c hc p hp => ⟨valIn_mono hl hd (h.conf c hc p hp).1, (h.conf c hc p hp).2⟩⟩

/-- Lists, domains and simulations are never removed. -/
theorem sop_grows (I : Interp K) {s : SimWorld K} (hs : SimSound s) {o : SOp K} (ho : SUses s.sizes o) :
    s.sizes.l ≤ (o.exec ext I s).2.sizes.l ∧ s.sizes.d ≤ (o.exec ext I s).2.sizes.d ∧ s.sizes.s ≤ (o.exec ext I s).2.sizes.s := by
  have run : ∀ {α : Type} {E : Err → Prop} {Q : α → Prop} {x : PyS K α}, Runs s E Q x → s.sizes.l ≤ (x s).2.sizes.l ∧ s.sizes.d ≤ (x s).2.sizes.d ∧ s.sizes.s ≤ (x s).2.sizes.s := fun h => by
    rw [(h s (.refl hs.linked)).1.sizes]
    exact ⟨le_refl _, le_refl _, le_refl _⟩
  cases o with
  | base o => exact ⟨le_refl _, le_refl _, le_refl _⟩
  | newList l => simp [SimWorld.sizes, SOp.exec, PyS.modify]
  | newDomain n vs => simp [SimWorld.sizes, SOp.exec, PyS.modify]
  | newSim n => simp [SimWorld.sizes, SOp.exec, PyS.modify]
  | domain r o => exact run (E := fun _ => True) (.bind (.getD ho) fun d _ => .setD r _)
  | configure i kw f d =>
    refine run (E := fun _ => True) (.bind .get fun s1 _ => .bind (Q := ConfIn s.sizes) (.lift (fun e he => trivial) fun c hc => ?_) fun c hc => .bind (.getSim ho.1) fun o hO => .setSim i ⟨?_, hO.domain⟩)
    · exact configure_ok hs.linked.default ho.2.1 ho.2.2.1 ho.2.2.2 hc
    · intro x hx; cases hx; exact hc
  | run i a => exact run (runs_run (ext := ext) I ho a)
  | status i => exact run (E := fun _ => True) (Q := Anyv) (.bind (runs_getStatus (fun e he => trivial) (fun _ => trivial) ho) fun _ _ => .ret trivial)
  | reset i =>
    refine run (E := fun _ => True) (Q := Anyv) (.bind (.getSim ho) fun o hO => ?_)
    have hd := hO.domain
    split
    · rename_i r hr
      rw [hr] at hd
      exact .bind (.getD hd) fun d _ => .setD _ _
    · exact .ret trivial
    · exact .raise trivial

/-- What holds throughout a session. -/
structure Sound (w : World K) : Prop where
  s : SimSound w.s
  linked : Spec.OLinked w

theorem init_err {lib : Lib K} {own : Option Conf} {a : Args K} {e : Err} (h : Study.init lib own a = .error e) :
    (e = .absentRequiredObject ∧ (a.simConf = .none ∧ own = none ∨ a.simConf = .other ∨ a.conf = .other)) ∨ (e = .keyError ∧ ∃ c, a.conf = .file c) ∨
      (e = .unexpectedValue ∧ a.optimizer = .other) ∨ ∃ al, lib.algorithm al = .error e := by
  unfold Study.init at h
  rcases h1 : simulationConf own a.simConf with e' | sc
  · rw [h1] at h
    cases h
    unfold simulationConf at h1
    refine .inl ?_
    split at h1
    · cases h1
    · cases h1
    · rename_i hn
      split at h1
      · cases h1
      · cases h1; exact ⟨rfl, .inl ⟨hn, rfl⟩⟩
    · rename_i hn
      cases h1; exact ⟨rfl, .inr (.inl hn)⟩
  rw [h1] at h
  change (optConf a.conf >>= _) = _ at h
  rcases h2 : optConf a.conf with e' | c
  · rw [h2] at h
    cases h
    unfold optConf at h2
    split at h2 <;> cases h2
    rename_i hn
    exact .inl ⟨rfl, .inr (.inr hn)⟩
  rw [h2] at h
  change (setOptimizer lib c a.optimizer >>= _) = _ at h
  rcases h3 : setOptimizer lib c a.optimizer with e' | ⟨o, m⟩
  · rw [h3] at h
    cases h
    refine .inr ?_
    unfold setOptimizer at h3
    split at h3
    · cases h3
    · rename_i hn
      cases h3; exact .inr (.inl ⟨rfl, hn⟩)
    · rename_i nm hn
      rcases hrec : recipe nm with _ | ⟨keys, args, fixed⟩
      · rw [hrec] at h3
        cases h3
      rw [hrec] at h3
      simp only at h3
      by_cases hf : ∃ c, a.conf = .file c
      · have hra : ∀ l, Errs [.keyError] (readAll c l) := fun l => by
          induction l with
          | nil => exact .ok _
          | cons k t ih => exact .bind (errs_dgetE _ _) fun _ _ => ih
        have hfi : ∀ l, Errs [.keyError] (fill c l) := fun l => by
          induction l with
          | nil => exact .ok _
          | cons k t ih => exact .bind (errs_dgetE _ _) fun _ _ => .bind ih fun _ _ => .ok _
        rcases g1 : readAll c keys with e' | u
        · rw [g1] at h3
          cases h3
          exact .inl ⟨List.mem_singleton.mp (hra _ _ g1), hf⟩
        rw [g1] at h3
        rcases g2 : fill c args with e' | r
        · rw [g2] at h3
          cases h3
          exact .inl ⟨List.mem_singleton.mp (hfi _ _ g2), hf⟩
        rw [g2] at h3
        change (lib.algorithm ⟨nm, r ++ fixed⟩ >>= _) = _ at h3
        rcases g3 : lib.algorithm ⟨nm, r ++ fixed⟩ with e' | u
        · rw [g3] at h3
          cases h3
          exact .inr (.inr ⟨_, g3⟩)
        · rw [g3] at h3
          cases h3
      · have hs : nm ∈ ["ga", "sade", "de", "pso"] := by
          by_contra hne
          have := (unknown_optimizer_accepted lib c hne).1
          unfold setOptimizer at this
          simp only [hrec] at this
          rw [this] at h3
          cases h3
        have ha : a.conf = .none ∨ ∃ d, a.conf = .dict d := by
          cases hc : a.conf with
          | none => exact .inl rfl
          | file c => exact absurd ⟨c, hc⟩ hf
          | dict d => exact .inr ⟨d, rfl⟩
          | other => rw [hc] at h2; cases h2
        obtain ⟨c', al, g1, g2, g3⟩ := (optimizer_defaults_suffice lib (a := a.conf) hs).1 ha
        rw [h2] at g1
        cases g1
        unfold setOptimizer at g3
        simp only [hrec] at g3
        rw [g3] at h3
        rcases hal : lib.algorithm al with e' | u
        · rw [hal] at h3
          cases h3
          exact .inr (.inr ⟨_, hal⟩)
        · rw [hal] at h3
          cases h3
  rw [h3] at h
  cases h

theorem init_in {lib : Lib K} {w : World K} {a : Args K} {o : Study K} (hw : Sound w) (ha : Spec.OUses w (.newStudy a)) (h : Study.init lib (ownConf w a.sim) a = .ok o) :
    Spec.StudyIn w.s.sizes w.probs.length o := by
  have h0 := h
  simp only [Study.init, bind_eq_ok] at h
  obtain ⟨sc, hsc, c, hc, ⟨x, m⟩, hm, h⟩ := h
  cases h
  refine ⟨ha.2.1, ha.1, ?_, fun hne => ?_⟩
  · have hin := ha.2.2
    unfold simulationConf at hsc
    show ConfIn _ sc
    split at hsc
    · rename_i d hd
      rw [hd] at hin
      cases hsc; exact hin
    · rename_i d hd
      rw [hd] at hin
      cases hsc; exact hin
    · split at hsc
      · rename_i c' hc'
        cases hsc
        unfold ownConf at hc'
        obtain ⟨so, hso, hconf⟩ := Option.bind_eq_some_iff.mp hc'
        exact (hw.linked.s.sims so (List.mem_of_getElem? hso)).conf _ hconf
      · cases hsc
    · cases hsc
  · cases ho : a.optimizer with
    | callable => rw [ho] at hm; cases hm; exact absurd rfl hne
    | other => rw [ho] at hm; cases hm
    | str nm =>
      by_cases hk : nm ∈ ["ga", "sade", "de", "pso"]
      · obtain ⟨v, hv⟩ := optimizer_needs_settings ho hk h0 "number_of_individuals" (by
          simp only [List.mem_cons, List.not_mem_nil, or_false] at hk
          rcases hk with rfl | rfl | rfl | rfl <;> decide)
        exact mem_dkeys_of_dget hv
      · rw [ho, (unknown_optimizer_accepted lib c hk).1] at hm
        cases hm
        exact absurd rfl hne

/-- One call of a session. -/
theorem op_sound (I : Interp K) (lib : Lib K) {w : World K} (hw : Sound w) {op : Op K} (ho : Spec.OUses w op) : Sound (op.exec ext I lib w) := by
  have hprobs : ∀ (j : PRef) (g : Problem K → Problem K), (∀ p, (g p).sim = p.sim ∧ (g p).conf = p.conf) → Sound { w with probs := w.probs.modify j g } := fun j g hg =>
    ⟨hw.s, hw.linked.s, fun o ho => studyIn_mono (le_refl _) (le_refl _) (le_refl _) (by simp) (hw.linked.opts o ho), fun p hp => by
      rcases mem_modify hp with hp | ⟨y, hy, rfl⟩
      · exact hw.linked.probs p hp
      · have := hw.linked.probs y hy
        exact ⟨by rw [(hg y).1]; exact this.sim, by rw [(hg y).2]; exact this.conf⟩⟩
  have hopts : ∀ (i : ORef) (g : Study K → Study K), (∀ o, Spec.StudyIn w.s.sizes w.probs.length o → Spec.StudyIn w.s.sizes w.probs.length (g o)) →
      Sound { w with opts := w.opts.modify i g } := fun i g hg =>
    ⟨hw.s, hw.linked.s, fun o ho => by
      rcases mem_modify ho with ho | ⟨y, hy, rfl⟩
      · exact hw.linked.opts o ho
      · exact hg y (hw.linked.opts y hy), hw.linked.probs⟩
  cases op with
  | sim o =>
    obtain ⟨g1, g2, g3⟩ := sop_grows (ext := ext) I hw.s ho
    have h := (sop_sound (ext := ext) I hw.s ho).1
    exact ⟨h, h.linked, fun o ho => studyIn_mono g1 g2 g3 (le_refl _) (hw.linked.opts o ho), fun p hp => probIn_mono g1 g2 g3 (hw.linked.probs p hp)⟩
  | newProblem d n b m s f =>
    refine ⟨hw.s, hw.linked.s, fun o ho => studyIn_mono (le_refl _) (le_refl _) (le_refl _) (by simp [Op.exec]) (hw.linked.opts o ho), fun p hp => ?_⟩
    rcases List.mem_append.mp hp with hp | hp
    · exact hw.linked.probs p hp
    · rw [List.mem_singleton.mp hp]
      exact ⟨ho, fun c hc => by cases hc⟩
  | call j => exact hprobs j _ fun p => ⟨rfl, rfl⟩
  | setBounds j b => exact hprobs j _ fun p => ⟨rfl, rfl⟩
  | setDirection j b => exact hprobs j _ fun p => ⟨rfl, rfl⟩
  | newStudy a =>
    unfold Op.exec
    simp only
    split
    · rename_i o h
      refine ⟨hw.s, hw.linked.s, fun x hx => ?_, hw.linked.probs⟩
      rcases List.mem_append.mp hx with hx | hx
      · exact hw.linked.opts x hx
      · rw [List.mem_singleton.mp hx]
        have := init_in hw ho h
        exact this
    · exact hw
  | setConstraints i b => exact hopts i _ fun o h => ⟨h.problem, h.sim, h.conf, h.individuals⟩
  | setProblem i j => exact hopts i _ fun o h => ⟨ho.2, h.sim, h.conf, h.individuals⟩
  | run i a =>
    have hrun : (runOptimization lib i a w).2.s = w.s := run_sim lib i a w
    have hop : ∀ o ∈ (runOptimization lib i a w).2.opts, Spec.StudyIn w.s.sizes w.probs.length o := fun x hx => by
      rcases run_cases lib i a w with ⟨o, lo, hi, c, o', h1, h2, h3, _⟩ | ⟨_, h3, _⟩
      · rw [h3] at hx
        rcases List.mem_or_eq_of_mem_set hx with hx | rfl
        · exact hw.linked.opts x hx
        · have hk := recorded_kept h2
          have hin := hw.linked.opts o (List.mem_of_getElem? h1.study)
          have hpr : x.problem = o.problem := by rw [h2]
          exact ⟨by rw [hpr]; exact hin.problem, by rw [hk.sim]; exact hin.sim, by rw [hk.simConf]; exact hin.conf, by rw [hk.mechanism, hk.conf]; exact hin.individuals⟩
      · rw [h3] at hx
        exact hw.linked.opts x hx
    have hpr : (runOptimization lib i a w).2.probs.length = w.probs.length ∧ ∀ p ∈ (runOptimization lib i a w).2.probs, Spec.ProbIn w.s.sizes p := by
      have hset : ∀ (o : Study K) (p : Problem K), w.opts[i]? = some o → ∀ x ∈ w.probs.set o.problem (install o p), Spec.ProbIn w.s.sizes x := fun o p ho x hx => by
        rcases List.mem_or_eq_of_mem_set hx with hx | rfl
        · exact hw.linked.probs x hx
        · have hin := hw.linked.opts o (List.mem_of_getElem? ho)
          exact ⟨fun j hj => by cases hj; exact hin.sim, fun c hc => by cases hc; exact hin.conf⟩
      unfold runOptimization
      split
      · exact ⟨rfl, hw.linked.probs⟩
      · rename_i o ho
        split
        · exact ⟨rfl, hw.linked.probs⟩
        · rename_i p hp
          split
          · exact ⟨rfl, hw.linked.probs⟩
          · simp only
            split
            · exact ⟨by simp, hset o p ho⟩
            · split
              · exact ⟨by simp, hset o p ho⟩
              · exact ⟨by simp, hset o p ho⟩
    have hr : Op.exec ext I lib w (.run i a) = (runOptimization lib i a w).2 := rfl
    rw [hr]
    exact ⟨by rw [hrun]; exact hw.s, by rw [hrun]; exact hw.linked.s, fun o ho => by rw [hrun, hpr.1]; exact hop o ho, fun p hp => by rw [hrun]; exact hpr.2 p hp⟩

theorem sound_init : Sound ({ s := { w := Sloth.World.init } } : World K) :=
  ⟨simSound_init, simSound_init.linked, fun o ho => (by cases ho), fun p hp => by cases hp⟩

theorem sound_history (I : Interp K) (lib : Lib K) : (ops : List (Op K)) → {w : World K} → Sound w → Spec.OSensible ext I lib ops w → Sound (ops.foldl (fun w o => o.exec ext I lib w) w)
  | [], _, hw, _ => hw
  | _ :: t, _, hw, h => sound_history I lib t (op_sound I lib hw h.1) h.2

/-- C111: in a session with studies that passes existing objects only, every reference leads to an object ... -/
theorem studies_linked (ext : Ext K) (I : Interp K) (lib : Lib K) (ops : List (Op K)) (h : Spec.OSensible ext I lib ops { s := { w := Sloth.World.init } }) :
    Spec.OLinked (history ext I lib ops) := (sound_history I lib ops sound_init h).linked

/-- ... and a call ends only with the exceptions listed for it, whatever the objective function does. -/
theorem studies_raise_only (ext : Ext K) (I : Interp K) (lib : Lib K) (ops : List (Op K)) (h : Spec.OSensible ext I lib ops { s := { w := Sloth.World.init } }) (op : Op K)
    (ho : Spec.OUses (history ext I lib ops) op) {e : Err} (he : Spec.outcome ext I lib (history ext I lib ops) op = .error e) :
    Spec.OMayRaise ext lib (history ext I lib ops) Spec.Objects e op := by
  have hw := sound_history I lib ops sound_init h
  change Sound (history ext I lib ops) at hw
  cases op with
  | sim o => exact (sop_sound (ext := ext) I hw.s ho).2 e he
  | newStudy a =>
    refine init_err ?_
    have he : (Study.init lib (ownConf (history ext I lib ops) a.sim) a).map (fun _ => ()) = .error e := he
    rcases hs : Study.init lib (ownConf (history ext I lib ops) a.sim) a with e' | o
    · rw [hs] at he; cases he; rfl
    · rw [hs] at he; cases he
  | run i a => exact run_err hw.linked ho (fun o p _ _ n al lo hi v e h => prog_err _ _ h) he
  | newProblem d n b m s f => cases he
  | call j => cases he
  | setBounds j b => cases he
  | setDirection j b => cases he
  | setConstraints i b => cases he
  | setProblem i j => cases he

/-- With the objective function of the script a study ends only with the exceptions of the libraries, of the models, and those listed. -/
theorem script_studies_raise_only (ext : Ext K) (I : Interp K) (lib : Lib K) (ops : List (Op K)) (h : Spec.OSensible ext I lib ops { s := { w := Sloth.World.init } }) {i : ORef}
    {a : RunArgs} {o : Study K} {p : Problem K} (ho : (history ext I lib ops).opts[i]? = some o) (hp : (history ext I lib ops).probs[o.problem]? = some p) {read : K → Rat}
    {names : List String} {target : String} (hobj : p.objective = usageObjective ext I read names target) {e : Err}
    (he : (runOptimization lib i a (history ext I lib ops)).1 = .error e) :
    Spec.RunErr lib (Spec.TrialErr ext (history ext I lib ops).s) a o p e := by
  have hw := sound_history I lib ops sound_init h
  change Sound (history ext I lib ops) at hw
  have hi : i < (history ext I lib ops).opts.length := (List.getElem?_eq_some_iff.mp ho).1
  have hin := hw.linked.opts o (List.mem_of_getElem? ho)
  obtain ⟨o', p', ho', hp', hr⟩ := run_err (F := fun p' o' e => p' = p ∧ o' = o → Spec.TrialErr ext (history ext I lib ops).s e) hw.linked hi (fun o' p' _ _ n al lo up v e h => by
    by_cases heq : p' = p ∧ o' = o
    · obtain ⟨rfl, rfl⟩ := heq
      rw [hobj] at h
      have ht : Tries (history ext I lib ops).s (fun e => FailsWith e (lib.evolve n al lo up v a.frequency) ∨ Spec.TrialErr ext (history ext I lib ops).s e)
          ((lib.evolve n al lo up v a.frequency).run (usageObjective ext I read names target (some o'.sim) (some o'.simConf))) :=
        .prog (fun x => (tries_usage I hw.s read names target hin.sim (fun c hc => by cases hc; exact hin.conf) x).mono fun e => .inr) _ fun e => .inl
      exact ((ht _ (.refl hw.s)).2 e h).imp id fun h _ => h
    · exact .inr fun h => absurd h heq) he
  rw [ho] at ho'
  cases ho'
  rw [hp] at hp'
  cases hp'
  unfold Spec.RunErr at hr ⊢
  rcases hr with h | h | h | h | h | h | h | h
  · exact .inl h
  · exact .inr (.inl h)
  · exact .inr (.inr (.inl h))
  · exact .inr (.inr (.inr (.inl h)))
  · exact .inr (.inr (.inr (.inr (.inl h))))
  · exact .inr (.inr (.inr (.inr (.inr (.inl h)))))
  · exact .inr (.inr (.inr (.inr (.inr (.inr (.inl h))))))
  · exact .inr (.inr (.inr (.inr (.inr (.inr (.inr (h ⟨rfl, rfl⟩)))))))

/-- Results can be asked for any study that exists; the only exception is the one for studies that have not been run. -/
theorem results_raise_only (w : World K) {i : ORef} (hi : i < w.opts.length) {e : Err} (he : getResults i w = .error e) : e = .exception "Should run" := by
  unfold getResults at he
  rw [List.getElem?_eq_getElem hi] at he
  simp only at he
  split_ifs at he
  cases he
  rfl

end

/-! ## Examples -/

namespace Ex
/-- Decidable forms of what calls must satisfy. -/
def plainArg (z : SSizes) : ConfArg → Bool
  | .file c | .dict c => Sloth.Ex.allIn z c
  | _ => true
def plainOOp (w : World Rat) : Op Rat → Bool
  | .sim o => Sloth.Ex.plainSOp w.s.sizes o
  | .newProblem _ _ _ _ s _ => s.all fun i => decide (i < w.s.sizes.s)
  | .call j | .setBounds j _ | .setDirection j _ => decide (j < w.probs.length)
  | .newStudy a => decide (a.sim < w.s.sizes.s) && decide (a.problem < w.probs.length) && plainArg w.s.sizes a.simConf
  | .setConstraints i _ | .run i _ => decide (i < w.opts.length)
  | .setProblem i j => decide (i < w.opts.length) && decide (j < w.probs.length)
def plainStudy (ext : Ext Rat) (lib : Lib Rat) : List (Op Rat) → World Rat → Bool
  | [], _ => true
  | o :: t, w => plainOOp w o && plainStudy ext lib t (o.exec ext Sloth.Ex.ratI lib w)

theorem plainOOp_spec {w : World Rat} {o : Op Rat} (h : plainOOp w o = true) : Spec.OUses w o := by
  cases o with
  | sim o => exact Sloth.Ex.plainSOp_spec h
  | newProblem d n b m s f =>
    intro i hi
    rw [hi] at h
    exact of_decide_eq_true (p := _ < _) h
  | call j => exact of_decide_eq_true (p := _ < _) h
  | setBounds j b => exact of_decide_eq_true (p := _ < _) h
  | setDirection j b => exact of_decide_eq_true (p := _ < _) h
  | newStudy a =>
    simp only [plainOOp, Bool.and_eq_true, decide_eq_true_eq] at h
    obtain ⟨⟨h1, h2⟩, h3⟩ := h
    refine ⟨h1, h2, ?_⟩
    cases hc : a.simConf <;> rw [hc] at h3
    · trivial
    · exact Sloth.Ex.allIn_spec h3
    · exact Sloth.Ex.allIn_spec h3
    · trivial
  | setConstraints i b => exact of_decide_eq_true (p := _ < _) h
  | setProblem i j =>
    simp only [plainOOp, Bool.and_eq_true, decide_eq_true_eq] at h
    exact h
  | run i a => exact of_decide_eq_true (p := _ < _) h

theorem plainStudy_spec (ext : Ext Rat) (lib : Lib Rat) : (ops : List (Op Rat)) → {w : World Rat} → plainStudy ext lib ops w = true → Spec.OSensible ext Sloth.Ex.ratI lib ops w
  | [], _, _ => trivial
  | _ :: t, _, h => ⟨plainOOp_spec (Bool.and_eq_true_iff.mp h).1, plainStudy_spec ext lib t (Bool.and_eq_true_iff.mp h).2⟩

/-- The sample studies, one of them that of the script, pass existing objects only. -/
example : Spec.OSensible Sloth.Ex.ext Sloth.Ex.ratI lib fitted { s := { w := Sloth.World.init } } ∧
    Spec.OSensible squares Sloth.Ex.ratI lib (sphereStudy ++ [.run 0 {}]) { s := { w := Sloth.World.init } } :=
  ⟨plainStudy_spec _ _ _ (by decide +kernel), plainStudy_spec _ _ _ (by decide +kernel)⟩

/-- How a call ends after a session. -/
def oends (lib : Lib Rat) (before : List (Op Rat)) (o : Op Rat) : Option Err :=
  match Spec.outcome Sloth.Ex.ext Sloth.Ex.ratI lib (history Sloth.Ex.ext Sloth.Ex.ratI lib before) o with
  | .ok _ => none
  | .error e => some e
/-- A library that refuses everything. -/
def refusing : Lib Rat := { algorithm := fun _ => .error (.exception "RuntimeError"), evolve := fun _ _ _ _ _ _ => .fail (.exception "RuntimeError"), plot := fun _ => .error (.exception "OSError") }

/-! The lists are not longer than necessary. -/
def studied (a : Args Rat) : List (Op Rat) := [.sim (.newSim "s"), .sim (.configure 0 [] none none), .newProblem 1 "p" .none false none objective, .call 0, .newStudy a]
def plainArgs : Args Rat := { sim := 0, problem := 0, params := [.quantity "a"], constraints := .flat [1, 2] }

example : oends lib [.sim (.newSim "s")] (.newStudy plainArgs) = some .absentRequiredObject := by decide +kernel
example : oends lib (studied plainArgs) (.newStudy { plainArgs with simConf := .other }) = some .absentRequiredObject := by decide +kernel
example : oends lib (studied plainArgs) (.newStudy { plainArgs with conf := .other }) = some .absentRequiredObject := by decide +kernel
example : oends lib (studied plainArgs) (.newStudy { plainArgs with conf := .file [] }) = some .keyError := by decide +kernel
example : oends lib (studied plainArgs) (.newStudy { plainArgs with optimizer := .other }) = some .unexpectedValue := by decide +kernel
example : oends lib (studied plainArgs) (.run 0 {}) = none := by decide +kernel
example : oends lib rejected (.run 1 {}) = some .absentRequiredObject := by decide +kernel
example : oends lib rejected (.run 0 {}) = some .absentRequiredObject := by decide +kernel
example : oends lib (studied { plainArgs with params := [], constraints := .dict [] }) (.run 0 {}) = some .indexError := by decide +kernel
example : oends lib (studied { plainArgs with optimizer := .callable }) (.run 0 {}) = some .attributeError := by decide +kernel
example : oends lib (studied { plainArgs with params := [.other] }) (.run 0 {}) = some .attributeError := by decide +kernel
example : oends lib (studied { plainArgs with params := [.quantity "a", .str "b"], constraints := .dict ["a"] }) (.run 0 {}) = some .attributeError := by decide +kernel
example : oends lib (studied plainArgs) (.run 0 { graph := true, log := false }) = some .attributeError := by decide +kernel
example : oends lib (studied { plainArgs with constraints := .none }) (.run 0 {}) = some .typeError := by decide +kernel
example : oends lib (studied { plainArgs with constraints := .flat [2, 1] }) (.run 0 {}) = some .valueError := by decide +kernel
example : oends lib (studied plainArgs) (.run 0 { graph := true }) = some .valueError := by decide +kernel
example : oends refusing (studied plainArgs) (.newStudy plainArgs) = some (.exception "RuntimeError") := by decide +kernel
example : oends { refusing with algorithm := fun _ => .ok () } (studied plainArgs) (.run 0 {}) = some (.exception "RuntimeError") := by decide +kernel
example : oends { lib with plot := fun _ => .error (.exception "OSError") } (studied plainArgs) (.run 0 { graph := true, frequency := 1 }) = some (.exception "OSError") := by decide +kernel
/-- The script without a value for its parameter in the point, with a wrong name, and with a wrong result. -/
def asked (names : List String) (target : String) : List (Op Rat) := sphereStudy.take 9 ++
  [.newProblem 1 "opt_prob" .none false none (usageObjective squares Sloth.Ex.ratI id names target), .call 0, .newStudy { sim := 0, problem := 0, params := [.quantity "v_M1"], constraints := .flat [-3, 7] }]
def scriptEnds (names : List String) (target : String) : Option Err := match (runOptimization lib 0 {} (history squares Sloth.Ex.ratI lib (asked names target))).1 with
  | .ok _ => none
  | .error e => some e
example : scriptEnds ["v_M1"] "u_M1" = none ∧ scriptEnds ["v_M1", "v_M1"] "u_M1" = some .indexError ∧ scriptEnds ["w"] "u_M1" = some .keyError ∧ scriptEnds ["v_M1"] "w" = some .keyError := by
  decide +kernel
end Ex
end Sloth.Opt
