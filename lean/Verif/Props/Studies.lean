import Verif.Props.Optimization

/-!
# What a study keeps (C75)
-/

namespace Sloth.Opt
open Sloth

section
variable {K : Type} [Field K] [LinearOrder K]

/-- The settings a study evaluates its simulation with: those given, as dictionary or file, else those the simulation has. -/
inductive Spec.Settings : Option Conf → ConfArg → Conf → Prop
  | dict (own d) : Settings own (.dict d) d
  | file (own d) : Settings own (.file d) d
  | own (c) : Settings (some c) .none c

theorem simulationConf_iff {own : Option Conf} {a : ConfArg} {c : Conf} : simulationConf own a = .ok c ↔ Spec.Settings own a c := by
  constructor
  · intro h
    cases a with
    | dict d => cases h; exact .dict _ _
    | file d => cases h; exact .file _ _
    | other => cases h
    | none =>
      cases own with
      | none => cases h
      | some d => cases h; exact .own _
  · rintro (_ | _ | _) <;> rfl

/-- The parts of a study that nothing changes. -/
structure Spec.Kept (o o' : Study K) : Prop where
  sim : o'.sim = o.sim
  simConf : o'.simConf = o.simConf
  params : o'.params = o.params
  conf : o'.conf = o.conf
  mechanism : o'.mechanism = o.mechanism
  optimizer : o'.optimizer = o.optimizer

theorem kept_refl (o : Study K) : Spec.Kept o o := ⟨rfl, rfl, rfl, rfl, rfl, rfl⟩
theorem kept_trans {a b c : Study K} (h : Spec.Kept a b) (g : Spec.Kept b c) : Spec.Kept a c :=
  ⟨g.1.trans h.1, g.2.trans h.2, g.3.trans h.3, g.4.trans h.4, g.5.trans h.5, g.6.trans h.6⟩

theorem recorded_kept {a : RunArgs} {c : Champion K} {o o' : Study K} (h : Spec.Recorded a c o o') : Spec.Kept o o' := by
  rw [h]; exact ⟨rfl, rfl, rfl, rfl, rfl, rfl⟩

theorem kept_exec (ext : Ext K) (I : Interp K) (lib : Lib K) {w : World K} (op : Op K) {i : ORef} {o : Study K} (h : w.opts[i]? = some o) :
    ∃ o', (op.exec ext I lib w).opts[i]? = some o' ∧ Spec.Kept o o' := by
  cases op with
  | sim p => exact ⟨o, h, kept_refl o⟩
  | newProblem d n b m s f => exact ⟨o, h, kept_refl o⟩
  | call j => exact ⟨o, h, kept_refl o⟩
  | setBounds j b => exact ⟨o, h, kept_refl o⟩
  | setDirection j b => exact ⟨o, h, kept_refl o⟩
  | newStudy a =>
    simp only [Op.exec]
    split
    · exact ⟨o, by rw [List.getElem?_append_left (List.getElem?_eq_some_iff.1 h).1]; exact h, kept_refl o⟩
    · exact ⟨o, h, kept_refl o⟩
  | setConstraints k b =>
    simp only [Op.exec, List.getElem?_modify, h]
    by_cases hk : k = i
    · exact ⟨{ o with constraints := b }, by simp [hk], rfl, rfl, rfl, rfl, rfl, rfl⟩
    · exact ⟨_, by simp [hk], kept_refl o⟩
  | setProblem k j =>
    simp only [Op.exec, List.getElem?_modify, h]
    by_cases hk : k = i
    · exact ⟨{ o with problem := j }, by simp [hk], rfl, rfl, rfl, rfl, rfl, rfl⟩
    · exact ⟨_, by simp [hk], kept_refl o⟩
  | run k a =>
    simp only [Op.exec]
    rcases run_cases lib k a w with ⟨o1, lo, hi, c, o', h1, h2, h3, _⟩ | ⟨_, h3, _⟩
    · rw [h3]
      by_cases hk : k = i
      · subst hk
        obtain rfl : o = o1 := by simpa [h] using h1.study
        exact ⟨o', by rw [List.getElem?_set_self (List.getElem?_eq_some_iff.1 h).1], recorded_kept h2⟩
      · exact ⟨o, by rw [List.getElem?_set_ne hk]; exact h, kept_refl o⟩
    · exact ⟨o, by rw [h3]; exact h, kept_refl o⟩

theorem kept_ops (ext : Ext K) (I : Interp K) (lib : Lib K) (ops : List (Op K)) {w : World K} {i : ORef} {o : Study K} (h : w.opts[i]? = some o) :
    ∃ o', (ops.foldl (fun w o => o.exec ext I lib w) w).opts[i]? = some o' ∧ Spec.Kept o o' := by
  induction ops generalizing w o with
  | nil => exact ⟨o, h, kept_refl o⟩
  | cons op l ih =>
    obtain ⟨o1, h1, k1⟩ := kept_exec ext I lib op h
    obtain ⟨o2, h2, k2⟩ := ih h1
    exact ⟨o2, h2, kept_trans k1 k2⟩

/-- C75: whatever is called after a study was created — other studies, settings of the simulation, runs that return or raise — it evaluates its
objective with the simulation, the settings and the parameters it was created with; the settings are those given to it, or else those the
simulation had at that time. -/
theorem study_settings {ext : Ext K} {I : Interp K} {lib : Lib K} (pre post : List (Op K)) {a : Args K} {o : Study K}
    (h : Study.init lib (ownConf (history ext I lib pre) a.sim) a = .ok o) :
    ∃ c o', Spec.Settings (ownConf (history ext I lib pre) a.sim) a.simConf c ∧
      (history ext I lib (pre ++ .newStudy a :: post)).opts[(history ext I lib pre).opts.length]? = some o' ∧
      o'.sim = a.sim ∧ o'.simConf = c ∧ o'.params = a.params ∧ o'.conf = o.conf ∧ o'.mechanism = o.mechanism ∧
      ∀ r lo hi ch, Spec.Answers lib (history ext I lib (pre ++ .newStudy a :: post)) (history ext I lib pre).opts.length r o' lo hi ch →
        ∃ p al n, (history ext I lib (pre ++ .newStudy a :: post)).probs[o'.problem]? = some p ∧
          ((lib.evolve (history ext I lib (pre ++ .newStudy a :: post)).runs al lo hi n r.frequency).run (p.objective (some a.sim) (some c))
            (history ext I lib (pre ++ .newStudy a :: post)).s).1 = .ok ch := by
  have h0 : (history ext I lib (pre ++ [.newStudy a])).opts[(history ext I lib pre).opts.length]? = some o := by
    rw [history_append]
    simp only [Op.exec, h]
    simp
  obtain ⟨o', h1, k⟩ := kept_ops ext I lib post h0
  have e : pre ++ .newStudy a :: post = pre ++ [.newStudy a] ++ post := by simp
  have e' : post.foldl (fun w o => o.exec ext I lib w) (history ext I lib (pre ++ [.newStudy a])) = history ext I lib (pre ++ .newStudy a :: post) := by
    rw [e]; simp [history]
  rw [e'] at h1
  simp only [Study.init, bind_eq_ok] at h
  obtain ⟨sc, hsc, c, hc, ⟨x, m⟩, hm, h⟩ := h
  cases h
  refine ⟨sc, o', simulationConf_iff.1 hsc, h1, k.sim, k.simConf, k.params, k.conf, k.mechanism, fun r lo hi ch ha => ?_⟩
  obtain ⟨p, al, n, g1, _, _, _, g5⟩ := ha.found
  rw [k.sim, k.simConf] at g5
  exact ⟨p, al, n, g1, g5⟩

/-- C75: without settings, given or of the simulation, no study is created. -/
theorem study_without_settings (ext : Ext K) (I : Interp K) (lib : Lib K) (w : World K) (a : Args K) (h : ∀ c, ¬ Spec.Settings (ownConf w a.sim) a.simConf c) :
    Study.init lib (ownConf w a.sim) a = .error .absentRequiredObject ∧ (Op.newStudy a).exec ext I lib w = w := by
  have h1 : simulationConf (ownConf w a.sim) a.simConf = .error .absentRequiredObject := by
    cases hc : a.simConf with
    | dict d => exact absurd (hc ▸ Spec.Settings.dict _ d) (h d)
    | file d => exact absurd (hc ▸ Spec.Settings.file _ d) (h d)
    | other => rfl
    | none =>
      cases ho : ownConf w a.sim with
      | none => rfl
      | some d => exact absurd (by rw [hc, ho]; exact .own d) (h d)
  have h2 : Study.init lib (ownConf w a.sim) a = .error .absentRequiredObject := by simp only [Study.init, h1]; rfl
  exact ⟨h2, by simp only [Op.exec, h2]⟩

end

/-- A study with own settings of a simulation that is configured otherwise. -/
def Ex.mine : Args Rat := { sim := 0, problem := 0, params := [.quantity "a"], simConf := .dict [("print_output", .bool true)], constraints := .flat [1, 2] }

example : (Study.init Ex.lib (ownConf (Ex.world (Ex.prepared .none (.str "pso"))) 0) Ex.mine).toOption.isSome ∧
    ((Ex.world (Ex.prepared .none (.str "pso") ++ [.newStudy Ex.mine, .sim (.configure 0 [("print_output", .bool false)] none none), .run 1 {}])).opts[1]?.map
      fun o => (o.simConf, o.bestX)) = some ([("print_output", .bool true)], some [1]) := by decide +kernel

example : ∀ c, ¬ Spec.Settings (ownConf (Ex.world [.sim (.newSim "s")]) 0) .none c := by
  intro c h
  have : ownConf (Ex.world [.sim (.newSim "s")]) 0 = none := by decide +kernel
  rw [this] at h
  cases h

end Sloth.Opt
