import Verif.Props.Models

/-!
# What a failed incorporation leaves behind (C28)
-/

namespace Sloth
open PyM

/-- The copy of a variable that is not exposed. -/
theorem addVariable_plain {m : MRef} {b : Bool} {r : Ref} {w : World} {mo : ModelObj} {q : Quantity} (hm : w.ms[m]? = some mo) (hq : w.qs[r]? = some q)
    (hx : q.isExposed = false) : ∃ w' mo', addVariableDirectly m b r w = (.ok (), w') ∧ w'.ms[m]? = some mo' ∧
      (∀ (s : Ref) (p : Quantity), w.qs[s]? = some p → w'.qs[s]? = some p) ∧ mo'.name = mo.name ∧ mo'.pars = mo.pars ∧ mo'.cons = mo.cons ∧ mo'.eqns = mo.eqns ∧
      ∀ k, k ∈ dkeys mo'.vars ↔ k = newName b q.name q.owner mo.name ∨ k ∈ dkeys mo.vars := by
  have hlt : m < w.ms.length := (List.getElem?_eq_some_iff.mp hm).1
  unfold addVariableDirectly
  rw [PyM.bind_of_ok (PyM.getM_of hm), PyM.bind_of_ok (show getQ r w = (.ok q, w) by simp [getQ, hq])]
  rw [PyM.bind_of_ok (show newQ _ w = _ from rfl), PyM.bind_of_ok (show setM _ _ _ = _ from rfl), hx,
    PyM.bind_of_ok (show PyM.when false _ _ = _ from rfl)]
  unfold setAttr
  rw [PyM.bind_of_ok (PyM.getM_of (q := { mo with vars := dset mo.vars (newName b q.name q.owner mo.name) w.qs.length }) (by simp [hlt]))]
  refine ⟨_, { mo with vars := dset mo.vars (newName b q.name q.owner mo.name) w.qs.length, attrs := dset mo.attrs (objectName q.name q.owner) (.qty w.qs.length) },
    rfl, by simp [hlt], fun s p hs => ?_, rfl, rfl, rfl, rfl, fun k => by simp [mem_dkeys_dset]⟩
  simp only
  rw [List.getElem?_append_left (List.getElem?_eq_some_iff.mp hs).1]
  exact hs

/-- The copy of an exposed variable: an exception, but only after the copy has been stored. -/
theorem addVariable_exposed {m : MRef} {b : Bool} {r : Ref} {w : World} {mo : ModelObj} {q : Quantity} (hm : w.ms[m]? = some mo) (hq : w.qs[r]? = some q)
    (hx : q.isExposed = true) : ∃ w' mo', addVariableDirectly m b r w = (.error .keyError, w') ∧ w'.ms[m]? = some mo' ∧
      mo'.name = mo.name ∧ mo'.pars = mo.pars ∧ mo'.cons = mo.cons ∧ mo'.eqns = mo.eqns ∧
      ∀ k, k ∈ dkeys mo'.vars ↔ k = newName b q.name q.owner mo.name ∨ k ∈ dkeys mo.vars := by
  have hlt : m < w.ms.length := (List.getElem?_eq_some_iff.mp hm).1
  unfold addVariableDirectly
  rw [PyM.bind_of_ok (PyM.getM_of hm), PyM.bind_of_ok (show getQ r w = (.ok q, w) by simp [getQ, hq])]
  rw [PyM.bind_of_ok (show newQ _ w = _ from rfl), PyM.bind_of_ok (show setM _ _ _ = _ from rfl), hx,
    PyM.bind_of_error (show PyM.when true (raise .keyError) _ = (.error .keyError, _) from rfl)]
  exact ⟨_, { mo with vars := dset mo.vars (newName b q.name q.owner mo.name) w.qs.length }, rfl, by simp [hlt], rfl, rfl, rfl, rfl, fun k => by simp [mem_dkeys_dset]⟩

theorem addVariables_stop {m : MRef} {b : Bool} {pre post : List Ref} {r : Ref} {q : Quantity} {w : World} {mo : ModelObj} (hm : w.ms[m]? = some mo)
    (hpre : ∀ s ∈ pre, ∃ p, w.qs[s]? = some p ∧ p.isExposed = false) (hq : w.qs[r]? = some q) (hx : q.isExposed = true) :
    ∃ w' mo', each (pre ++ r :: post) (addVariableDirectly m b) w = (.error .keyError, w') ∧ w'.ms[m]? = some mo' ∧
      mo'.pars = mo.pars ∧ mo'.cons = mo.cons ∧ mo'.eqns = mo.eqns ∧
      ∀ k, k ∈ dkeys mo'.vars ↔ (∃ s ∈ pre ++ [r], ∃ p, w.qs[s]? = some p ∧ k = newName b p.name p.owner mo.name) ∨ k ∈ dkeys mo.vars := by
  induction pre generalizing w mo with
  | nil =>
    obtain ⟨w', mo', h1, h2, -, h4, h5, h6, h7⟩ := addVariable_exposed (b := b) hm hq hx
    exact ⟨w', mo', by rw [List.nil_append, each_cons, PyM.bind_of_error h1], h2, h4, h5, h6, fun k => by simp [h7, hq]⟩
  | cons s pre ih =>
    obtain ⟨p, hp, hpx⟩ := hpre s (by simp)
    obtain ⟨w1, mo1, h1, h2, h3, h4, h5, h6, h7, h8⟩ := addVariable_plain (b := b) hm hp hpx
    obtain ⟨w', mo', g1, g2, g3, g4, g5, g6⟩ := ih h2 (fun s hs => (hpre s (by simp [hs])).imp fun p h => ⟨h3 _ _ h.1, h.2⟩) (h3 _ _ hq)
    refine ⟨w', mo', by rw [List.cons_append, each_cons, PyM.bind_of_ok h1, g1], g2, g3.trans h5, g4.trans h6, g5.trans h7, fun k => ?_⟩
    rw [g6, h8, h4]
    constructor
    · rintro (⟨s', hs', p', hp', rfl⟩ | rfl | h)
      · refine .inl ⟨s', by simp at hs' ⊢; tauto, p', ?_, rfl⟩
        rcases List.mem_append.1 hs' with hs' | hs'
        · obtain ⟨p2, e, -⟩ := hpre s' (by simp [hs'])
          rw [h3 _ _ e] at hp'; cases hp'; exact e
        · rw [List.mem_singleton] at hs'; subst hs'
          rw [h3 _ _ hq] at hp'; cases hp'; exact hq
      · exact .inl ⟨s, by simp, p, hp, rfl⟩
      · exact .inr h
    · rintro (⟨s', hs', p', hp', rfl⟩ | h)
      · simp only [List.cons_append, List.mem_cons] at hs'
        rcases hs' with rfl | hs'
        · rw [hp] at hp'; cases hp'; exact .inr (.inl rfl)
        · exact .inl ⟨s', hs', p', h3 _ _ hp', rfl⟩
      · exact .inr (.inr h)

/-- C28, finding: incorporating a model with exposed variables ends with `KeyError`, and not before the variables up to and including the first exposed one
have been copied into the target; nothing else has been. -/
theorem incorporate_exposed_leaves_copies {w : World} {m src : MRef} {mo so : ModelObj} (hm : w.ms[m]? = some mo) (hs : w.ms[src]? = some so)
    {pre post : Dict String Ref} {key : String} {r : Ref} {q : Quantity} (hv : so.vars = pre ++ (key, r) :: post)
    (hpre : ∀ p ∈ pre, ∃ y, w.qs[p.2]? = some y ∧ y.isExposed = false) (hq : w.qs[r]? = some q) (hx : q.isExposed = true) (fl : IncFlags) (hf : fl.vars = true) :
    ∃ w' mo', incorporate m src fl w = (.error .keyError, w') ∧ w'.ms[m]? = some mo' ∧ mo'.pars = mo.pars ∧ mo'.cons = mo.cons ∧ mo'.eqns = mo.eqns ∧
      ∀ k, k ∈ dkeys mo'.vars ↔ (∃ p ∈ pre ++ [(key, r)], ∃ y, w.qs[p.2]? = some y ∧ k = newName fl.rewrite y.name y.owner mo.name) ∨ k ∈ dkeys mo.vars := by
  obtain ⟨w', mo', h1, h2, h3, h4, h5, h6⟩ := addVariables_stop (b := fl.rewrite) (pre := dvalues pre) (post := dvalues post) hm (by
    intro s hs; obtain ⟨p, hp, rfl⟩ := List.mem_map.mp hs; exact hpre p hp) hq hx
  refine ⟨w', mo', ?_, h2, h3, h4, h5, fun k => ?_⟩
  · unfold incorporate
    rw [PyM.bind_of_ok (PyM.getM_of hs), hf, PyM.when_true, PyM.bind_of_error]
    rw [hv]
    simpa [dvalues] using h1
  · rw [h6]
    simp only [dvalues]
    constructor
    · rintro (⟨s, hs, y, hy, rfl⟩ | h)
      · simp only [List.mem_append, List.mem_map, List.mem_singleton] at hs
        rcases hs with ⟨p, hp, rfl⟩ | rfl
        · exact .inl ⟨p, by simp [hp], y, hy, rfl⟩
        · exact .inl ⟨(key, s), by simp, y, hy, rfl⟩
      · exact .inr h
    · rintro (⟨p, hp, y, hy, rfl⟩ | h)
      · simp only [List.mem_append, List.mem_singleton] at hp
        rcases hp with hp | rfl
        · exact .inl ⟨p.2, by simp only [List.mem_append, List.mem_map]; exact .inl ⟨p, hp, rfl⟩, y, hy, rfl⟩
        · exact .inl ⟨r, by simp, y, hy, rfl⟩
      · exact .inr h

/-- The source has `x`, an exposed `y`, `z` and a parameter; the target gets `x` and `y`, and no attribute for `y`. -/
def Ex.exposedOps : List Op := [.newModel "a" "" {} none, .newModel "b" "" {} none, .var 0 { name := "x", units := Tmpl.m },
  .var 0 { name := "y", units := Tmpl.m, exposed := true, vtype := "input" }, .var 0 { name := "z", units := Tmpl.m }]

example : (incorporate 1 0 {} (history Ex.exposedOps World.init)).1 = .error .keyError ∧
    ((incorporate 1 0 {} (history Ex.exposedOps World.init)).2.ms[1]?.map fun mo => (dkeys mo.vars, dkeys mo.attrs)) = some (["x_b", "y_b"], ["x"]) := by
  decide +kernel

example : ∃ mo so pre post q, (history Ex.exposedOps World.init).ms[1]? = some mo ∧ (history Ex.exposedOps World.init).ms[0]? = some so ∧
    so.vars = pre ++ ("y_a", 1) :: post ∧ (∀ p ∈ pre, ∃ y, (history Ex.exposedOps World.init).qs[p.2]? = some y ∧ y.isExposed = false) ∧
    (history Ex.exposedOps World.init).qs[1]? = some q ∧ q.isExposed = true :=
  ⟨_, _, [("x_a", 0)], [("z_a", 2)], _, rfl, rfl, rfl, by intro p hp; rw [List.mem_singleton] at hp; subst hp; exact ⟨_, rfl, rfl⟩, rfl, rfl⟩

/-- C28 fails for a source without a name: its variable `x_` is copied as `x__b`, while the copied equation asks for `x_b`. -/
theorem incorporate_unnamed_source : ∃ ops : List Op, Plain ops ∧ (∀ o ∈ ops, ∀ n d b, o = .newModel n d b none → n = "" ∨ n = "b") ∧
    (incorporate 1 0 {} (history ops World.init)).1 = .error .keyError ∧
    ((incorporate 1 0 {} (history ops World.init)).2.ms[1]?.map fun mo => (mo.name, dkeys mo.vars, dkeys mo.eqns)) = some ("b", ["x__b"], []) ∧
    (((history ops World.init).ms[0]?.map fun mo => (mo.name, dkeys mo.vars, dkeys mo.eqns)) = some ("", ["x_"], ["e_"])) := by
  refine ⟨[.newModel "" "" {} none, .newModel "b" "" {} none, .var 0 { name := "x", units := Tmpl.m },
    .eqn 0 "e" "" (some (.node ((VarArgs.quantity { name := "x", units := Tmpl.m } "").call 0))) true], ?_, ?_, by decide +kernel, by decide +kernel, by decide +kernel⟩
  · intro o ho
    simp only [List.mem_cons, List.not_mem_nil, or_false] at ho
    rcases ho with rfl | rfl | rfl | rfl <;> first | trivial | exact fun _ _ => trivial
  · intro o ho n d b e
    simp only [List.mem_cons, List.not_mem_nil, or_false] at ho
    rcases ho with rfl | rfl | rfl | rfl <;> cases e <;> simp

end Sloth
