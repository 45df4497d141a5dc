import Verif.Props.Outlets

/-!
# The fluxes of a stream over several calls (C119)
-/

namespace Sloth.Lib
open Sloth PyM Spec

/-- What a user does with a stream: set one of its quantities, or call it with a property package (or none) and an external library
that accepts or refuses the temperature and pressure (unit_op_library.py l.39-64, 93-118, model.py l.546-570). -/
inductive StreamAct where
  | set (a : String) (x : Rat)
  | call (lib : Option Rat → Option Rat → Except Err Unit) (v : Option View)

/-- unit_op_library.py l.93-118, model.py l.546-570: one action (`setFloat`, `streamCall`). -/
def StreamAct.run (m : MRef) : StreamAct → PyM Unit
  | .set a x => setFloat m a x
  | .call lib v => streamCall m lib v

/-- The state after the actions; whoever uses the stream goes on after an exception. -/
def StreamAct.after (m : MRef) (w : World) (l : List StreamAct) : World := l.foldl (fun w a => (a.run m w).2) w

/-- The attribute shows the given number, or is not specified. -/
def Spec.Shows (w : World) (m : MRef) (a : String) (o : Option Rat) : Prop :=
  ∃ q, Holds w m a q ∧ q.isSpecified = o.isSome ∧ ∀ x, o = some x → q.value = x

/-- The molar mass of a package in kg/mol: that of its last phase. -/
def Spec.molar (v : View) : Option Rat := (v.phases.getLast?.bind (·.2.MW)).map (· / 1000)

/-- What an action does to the values of a stream. -/
def Spec.flux (g : String → Option Rat) : StreamAct → String → Option Rat
  | .set a x => fun c => if a = c then some x else g c
  | .call _ none => g
  | .call _ (some v) => match Spec.molar v, g "mdot", g "ndot" with
    | some k, some x, none => if k = 0 then g else fun c => if "ndot" = c then some (x / k) else g c
    | some k, none, some y => fun c => if "mdot" = c then some (y * k) else g c
    | _, _, _ => g

/-- When both fluxes are given, a call of the stream changes nothing: the fluxes are not compared with the molar mass. -/
theorem given_fluxes_unchecked {w : World} {m : MRef} {a b : Quantity} (ha : Holds w m "mdot" a) (hb : Holds w m "ndot" b)
    (sa : a.isSpecified = true) (sb : b.isSpecified = true) (hin : ∀ mo, w.ms[m]? = some mo → mo.inlets = [])
    (lib : Option Rat → Option Rat → Except Err Unit) (v : Option View) : (streamCall m lib v w).2 = w := by
  obtain ⟨ra, la⟩ : ∃ r, lookupM m { attr := "mdot" } w = (.ok (r, a), w) := ha.lookup.imp fun r hr => by simp only [lookupM, hr]
  obtain ⟨rb, lb⟩ : ∃ r, lookupM m { attr := "ndot" } w = (.ok (r, b), w) := hb.lookup.imp fun r hr => by simp only [lookupM, hr]
  cases v with
  | some v =>
    refine streamCall_world m lib v ?_ hin
    unfold convertFlux
    rw [PyM.bind_of_ok la, PyM.bind_of_ok lb]
    simp only [sa, sb, Bool.not_true, Bool.and_false, Bool.false_and]
    rw [PyM.bind_of_ok (show (PyM.when false _ : PyM Unit) w = (.ok (), w) from rfl), PyM.bind_of_ok la, PyM.bind_of_ok lb]
    simp only [sa, sb, Bool.not_true, Bool.false_and]
    rfl
  | none =>
    unfold streamCall
    refine bind_world ?_ fun _ => ?_
    · unfold streamParameters
      refine bind_world rfl fun _ => bind_world rfl fun t => bind_world rfl fun p => ?_
      rcases t.2.isSpecified || p.2.isSpecified <;> rfl
    · obtain ⟨mo, -, hg, -⟩ := ha
      rw [PyM.bind_of_ok (PyM.getM_of hg), hin mo hg]
      rfl

theorem streamCall_world' (m : MRef) (lib : Option Rat → Option Rat → Except Err Unit) (v : View) {w w' : World} (h : (convertFlux m v w).2 = w')
    (hm : ∀ mo, w'.ms[m]? = some mo → mo.inlets = []) : (streamCall m lib (some v) w).2 = w' := by
  unfold streamCall
  refine bind_world ?_ fun _ => ?_
  · unfold streamParameters
    refine bind_world h fun _ => bind_world rfl fun t => bind_world rfl fun p => ?_
    rcases t.2.isSpecified || p.2.isSpecified <;> rfl
  · cases hg : w'.ms[m]? with
    | none => rw [PyM.bind_of_error (PyM.getM_none hg)]
    | some mo =>
      rw [PyM.bind_of_ok (PyM.getM_of hg), hm mo hg]
      rfl

theorem streamCall_none (m : MRef) (lib : Option Rat → Option Rat → Except Err Unit) {w : World}
    (hm : ∀ mo, w.ms[m]? = some mo → mo.inlets = []) : (streamCall m lib none w).2 = w := by
  unfold streamCall
  refine bind_world ?_ fun _ => ?_
  · unfold streamParameters
    refine bind_world rfl fun _ => bind_world rfl fun t => bind_world rfl fun p => ?_
    rcases t.2.isSpecified || p.2.isSpecified <;> rfl
  · cases hg : w.ms[m]? with
    | none => rw [PyM.bind_of_error (PyM.getM_none hg)]
    | some mo =>
      rw [PyM.bind_of_ok (PyM.getM_of hg), hm mo hg]
      rfl

theorem molarMass_eq (v : View) : (∃ k, v.molarMass = .ok k ∧ Spec.molar v = some k) ∨ (∃ e, v.molarMass = .error e) ∧ Spec.molar v = none := by
  unfold View.molarMass View.star Spec.molar
  cases hl : v.phases.getLast? with
  | none => right; exact ⟨⟨_, rfl⟩, rfl⟩
  | some p =>
    rcases p with ⟨n, c⟩
    cases hM : c.MW with
    | none => right; simp [hM]
    | some x => left; exact ⟨x * (1 / 1000), by simp [hM], by simp [hM]; ring⟩

section
variable {K : Type} [Field K] [LinearOrder K] {I : Interp K}

theorem Spec.Shows.set {w w' : World} {m : MRef} {n : String} {b : Body} {S : List String} {a c : String} {z : Rat} {o : Option Rat}
    (s : St I w' m n b S []) (k : ∀ x ∈ S, ∀ q', Holds w' m x q' → if x = a then q'.value = z ∧ q'.isSpecified = true else Holds w m x q')
    (hc : c ∈ S) (h : Spec.Shows w m c o) : Spec.Shows w' m c (if a = c then some z else o) := by
  obtain ⟨q, h1, h2, h3⟩ := h
  obtain ⟨q', h', -⟩ := s.holds hc
  have kk := k c hc q' h'
  by_cases e : c = a
  · rw [if_pos e] at kk
    rw [if_pos e.symm]
    exact ⟨q', h', kk.2, fun x hx => by cases hx; exact kk.1⟩
  · rw [if_neg e] at kk
    have := kk.unique h1
    subst this
    rw [if_neg (fun h => e h.symm)]
    exact ⟨q', h', h2, h3⟩

theorem St.noInlets {w : World} {m : MRef} {n : String} {b : Body} {S E} (h : St I w m n b S E) : ∀ mo, w.ms[m]? = some mo → mo.inlets = [] := by
  obtain ⟨⟨mo, g1, -, -, g2, -⟩, -⟩ := h
  intro mo' g; rw [g1] at g; cases g; exact g2

/-- One action. -/
theorem flux_step {w : World} {m : MRef} {n : String} {b : Body} {S : List String} (h : St I w m n b S []) (hm : "mdot" ∈ S) (hn : "ndot" ∈ S)
    {g : String → Option Rat} (hg : ∀ c ∈ S, Spec.Shows w m c (g c)) (a : StreamAct) (hl : ∀ c z, a = .set c z → c ∈ S) :
    St I (a.run m w).2 m n b S [] ∧ ∀ c ∈ S, Spec.Shows (a.run m w).2 m c (Spec.flux g a c) := by
  cases a with
  | set a z =>
    obtain ⟨w', r, s, k⟩ := h.set (hl a z rfl) z (Or.inl rfl)
    simp only [StreamAct.run, r, Spec.flux]
    exact ⟨s, fun c hc => (hg c hc).set s k hc⟩
  | call lib v =>
    cases v with
    | none =>
      simp only [StreamAct.run, streamCall_none m lib h.noInlets, Spec.flux]
      exact ⟨h, hg⟩
    | some v =>
      have key : St I (convertFlux m v w).2 m n b S [] ∧ ∀ c ∈ S, Spec.Shows (convertFlux m v w).2 m c (Spec.flux g (.call lib (some v)) c) := by
        obtain ⟨qa, ha, sa, va⟩ := hg _ hm
        obtain ⟨qb, hb, sb, vb⟩ := hg _ hn
        obtain ⟨ra, la⟩ : ∃ r, lookupM m { attr := "mdot" } w = (.ok (r, qa), w) := ha.lookup.imp fun r hr => by simp only [lookupM, hr]
        obtain ⟨rb, lb⟩ : ∃ r, lookupM m { attr := "ndot" } w = (.ok (r, qb), w) := hb.lookup.imp fun r hr => by simp only [lookupM, hr]
        unfold convertFlux
        rw [PyM.bind_of_ok la, PyM.bind_of_ok lb]
        rcases fm : g "mdot" with - | x <;> rcases fn : g "ndot" with - | y <;> rw [fm] at sa va <;> rw [fn] at sb vb
        · simp only [Option.isSome_none] at sa sb
          simp only [sa, sb, Bool.false_and]
          rw [PyM.bind_of_ok (show (PyM.when false _ : PyM Unit) w = (.ok (), w) from rfl), PyM.bind_of_ok la, PyM.bind_of_ok lb]
          simp only [sa, sb, Bool.and_false]
          have e : Spec.flux g (.call lib (some v)) = g := by
            simp only [Spec.flux, fm, fn]; cases Spec.molar v <;> rfl
          rw [e]
          exact ⟨h, hg⟩
        · simp only [Option.isSome_none, Option.isSome_some] at sa sb
          simp only [sa, sb, Bool.false_and]
          rw [PyM.bind_of_ok (show (PyM.when false _ : PyM Unit) w = (.ok (), w) from rfl), PyM.bind_of_ok la, PyM.bind_of_ok lb]
          simp only [sa, sb, Bool.not_false, Bool.and_self, when_true]
          rcases molarMass_eq v with ⟨k, hk, hk'⟩ | ⟨⟨e, he⟩, hk'⟩
          · obtain ⟨w', r, s, kk⟩ := h.set hm (qb.value * k) (Or.inl rfl)
            rw [hk, PyM.bind_lift_ok, r]
            simp only [Spec.flux, hk', fm, fn]
            rw [vb y rfl] at kk
            exact ⟨s, fun c hc => (hg c hc).set s kk hc⟩
          · rw [he]
            simp only [Spec.flux, hk', fm, fn]
            exact ⟨h, hg⟩
        · simp only [Option.isSome_none, Option.isSome_some] at sa sb
          simp only [sa, sb, Bool.not_false, Bool.and_self, when_true]
          rcases molarMass_eq v with ⟨k, hk, hk'⟩ | ⟨⟨e, he⟩, hk'⟩
          · rw [hk]
            by_cases k0 : k = 0
            · subst k0
              simp only [Spec.flux, hk', fm, fn, if_pos]
              exact ⟨h, hg⟩
            · obtain ⟨w', r, s, kk⟩ := h.set hn (qa.value / k) (Or.inl rfl)
              have r' : (do let k ← lift (.ok k : Except Err Rat); if k = 0 then raise .zeroDivision else setFloat m "ndot" (qa.value / k)) w = (.ok (), w') := by
                rw [PyM.bind_lift_ok, if_neg k0, r]
              rw [PyM.bind_of_ok r']
              rw [va x rfl] at kk
              have hx' := (hg _ hm).set s kk hm
              rw [if_neg (by decide), fm] at hx'
              simp only [Spec.flux, hk', fm, fn, if_neg k0]
              obtain ⟨q1, h1, s1, v1⟩ := hx'
              obtain ⟨q2, h2, -⟩ := s.holds hn
              obtain ⟨r1, l1⟩ : ∃ r, lookupM m { attr := "mdot" } w' = (.ok (r, q1), w') := h1.lookup.imp fun r hr => by simp only [lookupM, hr]
              obtain ⟨r2, l2⟩ : ∃ r, lookupM m { attr := "ndot" } w' = (.ok (r, q2), w') := h2.lookup.imp fun r hr => by simp only [lookupM, hr]
              rw [PyM.bind_of_ok l1, PyM.bind_of_ok l2]
              simp only [Option.isSome_some] at s1
              simp only [s1, Bool.not_true, Bool.false_and]
              exact ⟨s, fun c hc => (hg c hc).set s kk hc⟩
          · rw [he]
            simp only [Spec.flux, hk', fm, fn]
            exact ⟨h, hg⟩
        · simp only [Option.isSome_some] at sa sb
          simp only [sa, sb, Bool.not_true, Bool.and_false]
          rw [PyM.bind_of_ok (show (PyM.when false _ : PyM Unit) w = (.ok (), w) from rfl), PyM.bind_of_ok la, PyM.bind_of_ok lb]
          simp only [sa, sb, Bool.not_true, Bool.false_and]
          have e : Spec.flux g (.call lib (some v)) = g := by
            simp only [Spec.flux, fm, fn]; cases Spec.molar v <;> rfl
          rw [e]
          exact ⟨h, hg⟩
      rw [show (StreamAct.run m (.call lib (some v)) w).2 = (convertFlux m v w).2 from streamCall_world' m lib v rfl key.1.noInlets]
      exact key

theorem flux_steps {w : World} {m : MRef} {n : String} {b : Body} {S : List String} (h : St I w m n b S []) (hm : "mdot" ∈ S) (hn : "ndot" ∈ S)
    {g : String → Option Rat} (hg : ∀ c ∈ S, Spec.Shows w m c (g c)) (l : List StreamAct) (hl : ∀ a z, StreamAct.set a z ∈ l → a ∈ S) :
    ∀ c ∈ S, Spec.Shows (StreamAct.after m w l) m c (l.foldl Spec.flux g c) := by
  induction l generalizing w g with
  | nil => exact hg
  | cons a l ih =>
    obtain ⟨s, hs⟩ := flux_step h hm hn hg a fun c z e => hl c z (by rw [e]; simp)
    exact ih s hs fun c z h => hl c z (List.mem_cons_of_mem _ h)

end

/-- C119: whatever is set, and however often and with whatever packages a stream is called, its quantities show what the small account
`Spec.flux` says; calls that end with an exception are included. -/
theorem stream_fluxes {w : World} (hw : Reachable w) (name description : String) (l : List StreamAct)
    (hl : ∀ a z, StreamAct.set a z ∈ l → a ∈ ["mdot", "ndot", "P", "H", "T"]) :
    ∃ m w1, newStream name description w = (.ok m, w1) ∧
      ∀ c ∈ ["mdot", "ndot", "P", "H", "T"], Spec.Shows (StreamAct.after m w1 l) m c (l.foldl Spec.flux (fun _ => none) c) := by
  obtain ⟨wa, ra, sa, ua, -⟩ := (St.start (I := noFn) name description {} w).run (C := []) (K' := []) (l := streamPars)
    (by decide +kernel) (by simp) (by simp) (by simp)
  have ua := ua (by simp [Unset])
  have hnew : newStream name description w = (.ok w.ms.length, wa) := by
    unfold newStream
    rw [PyM.bind_of_ok (newModel_ok _ _ _ hw), PyM.bind_of_ok ra]
    rfl
  refine ⟨_, wa, hnew, flux_steps (show St noFn wa _ _ _ ["mdot", "ndot", "P", "H", "T"] [] from sa) (by simp) (by simp) (fun c hc => ?_) l hl⟩
  obtain ⟨q, h, -⟩ := (show St noFn wa _ _ _ ["mdot", "ndot", "P", "H", "T"] [] from sa).holds hc
  exact ⟨q, h, ua c hc q h, by simp⟩

/-- C119 for streams of several phases, with their fractions. -/
theorem multistream_fluxes {w : World} (hw : Reachable w) (name description : String) (v : View) (hn : v.names.Nodup) (hi : ∀ p ∈ v.names, Spec.PhaseName p)
    (l : List StreamAct) (hl : ∀ a z, StreamAct.set a z ∈ l → a ∈ Spec.streamAttrs v.names) :
    ∃ m w1, newMultiStream name description (some v) w = (.ok m, w1) ∧
      ∀ c ∈ Spec.streamAttrs v.names, Spec.Shows (StreamAct.after m w1 l) m c (l.foldl Spec.flux (fun _ => none) c) := by
  obtain ⟨wa, ra, sa, ua, -⟩ := (St.start (I := noFn) name description {} w).run (C := []) (K' := []) (l := streamPars)
    (by decide +kernel) (by simp) (by simp) (by simp)
  have ua := ua (by simp [Unset])
  obtain ⟨wb, rb, sb, ub⟩ := (show St noFn wa _ _ _ ["mdot", "ndot", "P", "H", "T"] [] from sa).streamFracs hn (phaseNames hi) (by
    intro p _ a ha hc
    have hk : ∀ k ∈ ["mdot", "ndot", "P", "H", "T"], isFrac k = false := by decide +kernel
    have := isFrac_stream ha
    rw [hk a hc] at this; cases this)
  have ub := ub ua
  have sb : St noFn wb _ _ _ (Spec.streamAttrs v.names) [] := sb
  refine ⟨w.ms.length, wb, ?_, flux_steps sb (by simp [Spec.streamAttrs]) (by simp [Spec.streamAttrs]) (fun c hc => ?_) l hl⟩
  · show (newModel name description {} none >>= fun m => each streamPars (Cmd.run m) >>= fun _ => each (v.names.flatMap Lib.streamFracs) (Cmd.run m) >>= fun _ =>
      PyM.pure m) w = _
    rw [PyM.bind_of_ok (newModel_ok _ _ _ hw), PyM.bind_of_ok ra, PyM.bind_of_ok rb]
    rfl
  · obtain ⟨q, h, -⟩ := sb.holds hc
    exact ⟨q, h, ub c hc q h, by simp⟩

/-- The actions set neither flux. -/
def Spec.NoFlux (l : List StreamAct) : Prop := ∀ z, StreamAct.set "mdot" z ∉ l ∧ StreamAct.set "ndot" z ∉ l

theorem flux_other {a : StreamAct} (h : Spec.NoFlux [a]) {g : String → Option Rat}
    (hc : ((g "mdot").isSome = (g "ndot").isSome) ∨ ∀ lib v, a = .call lib (some v) → Spec.molar v = none) :
    Spec.flux g a "mdot" = g "mdot" ∧ Spec.flux g a "ndot" = g "ndot" := by
  cases a with
  | set a z =>
    have h1 : a ≠ "mdot" := by rintro rfl; exact (h z).1 (by simp)
    have h2 : a ≠ "ndot" := by rintro rfl; exact (h z).2 (by simp)
    simp [Spec.flux, h1, h2]
  | call lib v =>
    cases v with
    | none => exact ⟨rfl, rfl⟩
    | some v =>
      rcases hc with hc | hc
      · rcases fm : g "mdot" with - | x <;> rcases fn : g "ndot" with - | y <;> simp [fm, fn] at hc <;> cases hm : Spec.molar v <;> simp [Spec.flux, hm, fm, fn]
      · simp [Spec.flux, hc lib v rfl]

theorem flux_others {l : List StreamAct} (h : Spec.NoFlux l) {g : String → Option Rat}
    (hc : ((g "mdot").isSome = (g "ndot").isSome) ∨ ∀ lib v, StreamAct.call lib (some v) ∈ l → Spec.molar v = none) :
    l.foldl Spec.flux g "mdot" = g "mdot" ∧ l.foldl Spec.flux g "ndot" = g "ndot" := by
  induction l generalizing g with
  | nil => exact ⟨rfl, rfl⟩
  | cons a l ih =>
    obtain ⟨e1, e2⟩ := flux_other (a := a) (g := g) (fun z => ⟨fun hh => (h z).1 (by rw [List.mem_singleton] at hh; rw [hh]; simp),
      fun hh => (h z).2 (by rw [List.mem_singleton] at hh; rw [hh]; simp)⟩) (hc.imp id fun hc lib v e => hc lib v (by rw [e]; simp))
    obtain ⟨e3, e4⟩ := ih (g := Spec.flux g a) (fun z => ⟨fun hh => (h z).1 (List.mem_cons_of_mem _ hh), fun hh => (h z).2 (List.mem_cons_of_mem _ hh)⟩)
      (hc.imp (by rw [e1, e2]; exact id) fun hc lib v e => hc lib v (List.mem_cons_of_mem _ e))
    exact ⟨e3.trans e1, e4.trans e2⟩

/-- C119, the part that holds: if only one of the fluxes is ever set, and only once, then the first call with a package of known molar mass makes
them agree, and they agree ever after, whatever packages later calls bring. -/
theorem fluxes_agree_partial {w : World} (hw : Reachable w) (name description : String) (pre mid post : List StreamAct) {g : String}
    (hg : g = "mdot" ∨ g = "ndot") (x : Rat) (lib : Option Rat → Option Rat → Except Err Unit) (v : View) {k : Rat} (hk : Spec.molar v = some k) (k0 : k ≠ 0)
    (h1 : Spec.NoFlux pre) (h2 : Spec.NoFlux mid) (h3 : Spec.NoFlux post)
    (hm : ∀ lib v, StreamAct.call lib (some v) ∈ mid → Spec.molar v = none)
    (hl : ∀ a z, StreamAct.set a z ∈ pre ++ .set g x :: (mid ++ .call lib (some v) :: post) → a ∈ ["mdot", "ndot", "P", "H", "T"]) :
    ∃ m w1 a b, newStream name description w = (.ok m, w1) ∧
      Spec.Shows (StreamAct.after m w1 (pre ++ .set g x :: (mid ++ .call lib (some v) :: post))) m "mdot" (some a) ∧
      Spec.Shows (StreamAct.after m w1 (pre ++ .set g x :: (mid ++ .call lib (some v) :: post))) m "ndot" (some b) ∧
      a = b * k ∧ (g = "mdot" → a = x) ∧ (g = "ndot" → b = x) := by
  obtain ⟨m, w1, hn, hs⟩ := stream_fluxes hw name description _ hl
  have hx := hs "mdot" (by simp)
  have hy := hs "ndot" (by simp)
  rw [List.foldl_append, List.foldl_cons, List.foldl_append, List.foldl_cons] at hx hy
  obtain ⟨p1, p2⟩ := flux_others (g := fun _ => none) h1 (Or.inl rfl)
  generalize pre.foldl Spec.flux (fun _ => none) = g1 at p1 p2 hx hy
  obtain ⟨p3, p4⟩ := flux_others (g := Spec.flux g1 (.set g x)) h2 (Or.inr hm)
  generalize mid.foldl Spec.flux (Spec.flux g1 (.set g x)) = g2 at p3 p4 hx hy
  rcases hg with rfl | rfl
  · have q1 : g2 "mdot" = some x := by simp [p3, Spec.flux]
    have q2 : g2 "ndot" = none := by simp [p4, Spec.flux, p2]
    have e1 : Spec.flux g2 (.call lib (some v)) "mdot" = some x := by simp [Spec.flux, hk, k0, q1, q2]
    have e2 : Spec.flux g2 (.call lib (some v)) "ndot" = some (x / k) := by simp [Spec.flux, hk, k0, q1, q2]
    obtain ⟨p5, p6⟩ := flux_others (g := Spec.flux g2 (.call lib (some v))) h3 (Or.inl (by rw [e1, e2]; rfl))
    rw [p5, e1] at hx
    rw [p6, e2] at hy
    exact ⟨m, w1, x, x / k, hn, hx, hy, by field_simp, fun _ => rfl, fun h => absurd h (by decide)⟩
  · have q1 : g2 "ndot" = some x := by simp [p4, Spec.flux]
    have q2 : g2 "mdot" = none := by simp [p3, Spec.flux, p1]
    have e1 : Spec.flux g2 (.call lib (some v)) "mdot" = some (x * k) := by simp [Spec.flux, hk, q1, q2]
    have e2 : Spec.flux g2 (.call lib (some v)) "ndot" = some x := by simp [Spec.flux, hk, q1, q2]
    obtain ⟨p5, p6⟩ := flux_others (g := Spec.flux g2 (.call lib (some v))) h3 (Or.inl (by rw [e1, e2]; rfl))
    rw [p5, e1] at hx
    rw [p6, e2] at hy
    exact ⟨m, w1, x * k, x, hn, hx, hy, rfl, fun h => absurd h (by decide), fun _ => rfl⟩

/-- C119, finding: a mass flux that is changed after the stream was called is not converted again by further calls, so the fluxes disagree. -/
theorem changed_flux_not_converted {w : World} (hw : Reachable w) (name description : String) {x y : Rat} (hxy : x ≠ y)
    (lib : Option Rat → Option Rat → Except Err Unit) {v : View} {k : Rat} (hk : Spec.molar v = some k) (k0 : k ≠ 0) (n : Nat) :
    ∃ m w1 a b, newStream name description w = (.ok m, w1) ∧
      Spec.Shows (StreamAct.after m w1 (.set "mdot" x :: .call lib (some v) :: .set "mdot" y :: List.replicate n (.call lib (some v)))) m "mdot" (some a) ∧
      Spec.Shows (StreamAct.after m w1 (.set "mdot" x :: .call lib (some v) :: .set "mdot" y :: List.replicate n (.call lib (some v)))) m "ndot" (some b) ∧
      a ≠ b * k := by
  obtain ⟨m, w1, hn, hs⟩ := stream_fluxes hw name description
    (.set "mdot" x :: .call lib (some v) :: .set "mdot" y :: List.replicate n (.call lib (some v)))
    (by intro a z h; simp at h; rcases h with h | h <;> simp [h.1])
  have hx := hs "mdot" (by simp)
  have hy := hs "ndot" (by simp)
  rw [List.foldl_cons, List.foldl_cons, List.foldl_cons] at hx hy
  have e1 : Spec.flux (Spec.flux (Spec.flux (fun _ => none) (.set "mdot" x)) (.call lib (some v))) (.set "mdot" y) "mdot" = some y := by
    simp [Spec.flux]
  have e2 : Spec.flux (Spec.flux (Spec.flux (fun _ => none) (.set "mdot" x)) (.call lib (some v))) (.set "mdot" y) "ndot" = some (x / k) := by
    simp [Spec.flux, hk, k0]
  obtain ⟨p1, p2⟩ := flux_others (l := List.replicate n (.call lib (some v)))
    (g := Spec.flux (Spec.flux (Spec.flux (fun _ => none) (.set "mdot" x)) (.call lib (some v))) (.set "mdot" y)) (by intro z; simp) (Or.inl (by rw [e1, e2]; rfl))
  rw [p1, e1] at hx
  rw [p2, e2] at hy
  exact ⟨m, w1, y, x / k, hn, hx, hy, by rw [div_mul_cancel₀ _ k0]; exact hxy.symm⟩

namespace Ex

/-- Water. -/
def fluxView : View := { count := 1, names := ["l"], phases := [("l", { MW := some 18, rho := some 1000, Cp := some 75 })] }

/-- Two fluxes that do not fit, a call, and a third value. -/
example : ([.set "mdot" 36, .set "ndot" 5, .call (fun _ _ => .ok ()) (some fluxView), .set "T" 300, .call (fun _ _ => .error .valueError) (some fluxView)] :
    List StreamAct).foldl Spec.flux (fun _ => none) "mdot" = some 36 := by decide +kernel

/-- A molar flux of water, then a call. -/
example : (["mdot", "ndot", "T", "P"].map (([.set "ndot" 5, .set "T" 300, .call (fun _ _ => .ok ()) (some fluxView)] : List StreamAct).foldl Spec.flux (fun _ => none))) =
    [some (9 / 100), some 5, some 300, none] := by decide +kernel

example : Spec.molar fluxView = some (18 / 1000) := by decide +kernel

end Ex

/-- 36 kg/s of water given, then the temperature, then two calls: 2000 mol/s. -/
theorem fluxes_agree_use {w : World} (hw : Reachable w) (lib : Option Rat → Option Rat → Except Err Unit) : ∃ m w1 a b, newStream "s" "" w = (.ok m, w1) ∧
      Spec.Shows (StreamAct.after m w1 ([.set "T" 300] ++ .set "mdot" 36 :: ([.call lib none] ++ .call lib (some Ex.fluxView) :: [.call lib (some Ex.fluxView)]))) m "mdot" (some a) ∧
      Spec.Shows (StreamAct.after m w1 ([.set "T" 300] ++ .set "mdot" 36 :: ([.call lib none] ++ .call lib (some Ex.fluxView) :: [.call lib (some Ex.fluxView)]))) m "ndot" (some b) ∧
      a = b * (18 / 1000) ∧ ("mdot" = "mdot" → a = 36) ∧ ("mdot" = "ndot" → b = 36) :=
  fluxes_agree_partial hw "s" "" _ _ _ (Or.inl rfl) 36 lib Ex.fluxView (by decide +kernel) (by norm_num) (by intro z; simp) (by intro z; simp)
    (by intro z; simp) (by simp) (by intro a z h; simp at h; rcases h with h | h <;> simp [h.1])

end Sloth.Lib
