import Verif.Model.Optimization
import Verif.Props.Odes

/-!
# Optimization (C45, C46, C63)
-/

namespace Sloth.Opt
open Sloth

section
variable {K : Type} [Field K] [LinearOrder K]

theorem history_append (ext : Ext K) (I : Interp K) (lib : Lib K) (ops : List (Op K)) (o : Op K) :
    history ext I lib (ops ++ [o]) = o.exec ext I lib (history ext I lib ops) := by simp [history]

/-! ## Answers of the library -/

/-- The constraints give these lower and upper bounds: two numbers, or two sequences. -/
inductive Spec.Given : Bounds K → List K → List K → Prop
  | flat (l h : K) : Given (.flat [l, h]) [l] [h]
  | nested (lo hi : List K) : Given (.nested [lo, hi]) lo hi

/-- In the state `w` the optimizer of study `i`, called with the constraints of the study, answers with the champion `c`. -/
structure Spec.Answers (lib : Lib K) (w : World K) (i : ORef) (a : RunArgs) (o : Study K) (lo hi : List K) (c : Champion K) : Prop where
  study : w.opts[i]? = some o
  bounds : Spec.Given o.constraints lo hi
  order : List.Forall₂ (· ≤ ·) lo hi
  nonempty : lo ≠ []
  named : ∀ q ∈ o.params, q ≠ .other
  found : ∃ p al n, w.probs[o.problem]? = some p ∧ p.ready = true ∧ o.mechanism = some al ∧ dget o.conf "number_of_individuals" = some n ∧
    ((lib.evolve w.runs al lo hi n a.frequency).run (p.objective (some o.sim) (some o.simConf)) w.s).1 = .ok c

theorem zip_all {lo hi : List K} (h : lo.length = hi.length) :
    ((lo.zip hi).all fun p => decide (p.1 ≤ p.2)) = true ↔ List.Forall₂ (· ≤ ·) lo hi := by
  induction lo generalizing hi with
  | nil => cases hi <;> simp at h ⊢
  | cons x t ih =>
    cases hi with
    | nil => simp at h
    | cons y t' => simp [List.forall₂_cons, ← ih (by simpa using h)]

theorem pgBounds_iff {b : Bounds K} {lo hi : List K} :
    pgBounds b = .ok (lo, hi) ↔ Spec.Given b lo hi ∧ lo ≠ [] ∧ List.Forall₂ (· ≤ ·) lo hi := by
  have key : ∀ (l h lo hi : List K),
      (if l.length = h.length ∧ l ≠ [] ∧ ((l.zip h).all fun p => decide (p.1 ≤ p.2)) = true then Except.ok (l, h) else Except.error Err.valueError)
        = Except.ok (lo, hi) ↔ (l = lo ∧ h = hi) ∧ lo ≠ [] ∧ List.Forall₂ (· ≤ ·) lo hi := by
    intro l h lo hi
    constructor
    · intro g
      split at g
      · next hc =>
        simp only [Except.ok.injEq, Prod.mk.injEq] at g
        obtain ⟨rfl, rfl⟩ := g
        exact ⟨⟨rfl, rfl⟩, hc.2.1, (zip_all hc.1).1 hc.2.2⟩
      · simp at g
    · rintro ⟨⟨rfl, rfl⟩, h1, h2⟩
      rw [if_pos ⟨h2.length_eq, h1, (zip_all h2.length_eq).2 h2⟩]
  unfold pgBounds
  cases b with
  | none => simp only [declareSetBounds]; exact ⟨fun h => (by cases h), fun h => (by cases h.1)⟩
  | dict k => simp only [declareSetBounds]; exact ⟨fun h => (by cases h), fun h => (by cases h.1)⟩
  | flat l =>
    simp only [declareSetBounds]
    rcases l with _ | ⟨a, _ | ⟨b, _ | ⟨c, t⟩⟩⟩
    · exact ⟨fun h => (by cases h), fun h => (by cases h.1)⟩
    · exact ⟨fun h => (by cases h), fun h => (by cases h.1)⟩
    · refine (key [a] [b] lo hi).trans (and_congr_left fun _ => ⟨?_, ?_⟩)
      · rintro ⟨rfl, rfl⟩; exact .flat a b
      · intro h; cases h; exact ⟨rfl, rfl⟩
    · exact ⟨fun h => (by cases h), fun h => (by cases h.1)⟩
  | nested l =>
    simp only [declareSetBounds]
    rcases l with _ | ⟨a, _ | ⟨b, _ | ⟨c, t⟩⟩⟩
    · exact ⟨fun h => (by cases h), fun h => (by cases h.1)⟩
    · exact ⟨fun h => (by simp at h), fun h => (by cases h.1)⟩
    · by_cases hl : b.length = a.length
      · have : ([a, b].all fun r => decide (r.length = ([a, b].headD []).length)) = true := by simp [hl]
        rw [if_pos this]
        refine (key a b lo hi).trans (and_congr_left fun _ => ⟨?_, ?_⟩)
        · rintro ⟨rfl, rfl⟩; exact .nested a b
        · intro h; cases h; exact ⟨rfl, rfl⟩
      · have : ¬ ([a, b].all fun r => decide (r.length = ([a, b].headD []).length)) = true := by simp [hl]
        rw [if_neg this]
        constructor
        · intro h; cases h
        · rintro ⟨h, _, h2⟩; cases h; exact absurd h2.length_eq.symm hl
    · constructor
      · intro h
        split at h
        · cases h
        · cases h
      · intro h; cases h.1

theorem prepare_iff {o : Study K} {b : Bounds K} {al : Algo} {n : CVal} {lo hi : List K} :
    prepare o b = .ok (al, n, lo, hi) ↔ o.mechanism = some al ∧ (∀ q ∈ o.params, q ≠ .other) ∧ dget o.conf "number_of_individuals" = some n ∧
      pgBounds b = .ok (lo, hi) := by
  unfold prepare
  cases o.mechanism with
  | none => simp
  | some a =>
    simp only [Option.some.injEq, paramNames, dgetE]
    by_cases hp : ∀ q ∈ o.params, q ≠ .other
    · rw [if_pos (by simpa using hp)]
      cases dget o.conf "number_of_individuals" with
      | none =>
        constructor
        · intro h; cases h
        · rintro ⟨_, _, h, _⟩; cases h
      | some m =>
        cases pgBounds b with
        | error e =>
          constructor
          · intro h; cases h
          · rintro ⟨_, _, _, h⟩; cases h
        | ok v =>
          obtain ⟨l, h⟩ := v
          constructor
          · intro g; cases g; exact ⟨rfl, hp, rfl, rfl⟩
          · rintro ⟨rfl, _, h1, h2⟩; cases h1; cases h2; rfl
    · rw [if_neg (by simpa using hp)]
      constructor
      · intro h; cases h
      · rintro ⟨_, h, _⟩; exact absurd h hp

/-- The study as a run with champion `c` leaves it. -/
def Spec.Recorded (a : RunArgs) (c : Champion K) (o o' : Study K) : Prop :=
  o' = { o with bestX := some c.x, bestF := some c.f, log := if a.log then some c.rows else o.log, success := o'.success }

theorem finish_recorded (lib : Lib K) (a : RunArgs) (o : Study K) (c : Champion K) :
    Spec.Recorded a c o (finish lib a o c).2 ∧ ((finish lib a o c).1 = .ok () → (finish lib a o c).2.success = true) := by
  unfold finish Spec.Recorded
  rcases a with ⟨fr, lg, gr⟩
  cases lg <;> cases gr <;> simp only [if_true, if_false, Bool.false_eq_true] <;> (try simp) <;> split <;> simp

/-- What a run does: the library answers and its answer is stored, or it does not answer and the run raises. -/
theorem run_cases (lib : Lib K) (i : ORef) (a : RunArgs) (w : World K) :
    (∃ o lo hi c o', Spec.Answers lib w i a o lo hi c ∧ Spec.Recorded a c o o' ∧ (runOptimization lib i a w).2.opts = w.opts.set i o' ∧
      ((runOptimization lib i a w).1 = .ok () → o'.success = true)) ∨
    ((∀ o lo hi c, ¬ Spec.Answers lib w i a o lo hi c) ∧ (runOptimization lib i a w).2.opts = w.opts ∧
      ∃ e, (runOptimization lib i a w).1 = .error e) := by
  unfold runOptimization
  cases ho : w.opts[i]? with
  | none => exact Or.inr ⟨fun o lo hi c h => absurd h.study (by simp [ho]), rfl, _, rfl⟩
  | some o =>
    simp only
    cases hp : w.probs[o.problem]? with
    | none =>
      refine Or.inr ⟨fun o' lo hi c h => ?_, rfl, _, rfl⟩
      obtain rfl : o = o' := by simpa [ho] using h.study
      obtain ⟨p, _, _, h1, _⟩ := h.found
      simp [hp] at h1
    | some p =>
      simp only
      cases hs : sane o p with
      | error e =>
        refine Or.inr ⟨fun o' lo hi c h => ?_, rfl, _, rfl⟩
        obtain rfl : o = o' := by simpa [ho] using h.study
        obtain ⟨p', _, _, h1, h2, _⟩ := h.found
        obtain rfl : p = p' := by simpa [hp] using h1
        have hb := h.bounds
        unfold sane at hs
        cases hc : o.constraints <;> rw [hc] at hs hb
        · cases hb
        · simp only [h2, if_true] at hs; cases hs
        · simp only [h2, if_true] at hs; cases hs
        · cases hb
      | ok u =>
        have hr : p.ready = true := by
          unfold sane at hs
          by_contra hr
          simp only [Bool.not_eq_true] at hr
          simp only [hr, Bool.false_eq_true, if_false] at hs
          cases hc : o.constraints <;> rw [hc] at hs
          · cases hs
          · cases hs
          · cases hs
          · next k =>
            simp only at hs
            cases hk : checkParams k o.params <;> rw [hk] at hs <;> cases hs
        simp only
        cases hq : prepare o (install o p).bounds with
        | error e =>
          refine Or.inr ⟨fun o' lo hi c h => ?_, rfl, _, rfl⟩
          obtain rfl : o = o' := by simpa [ho] using h.study
          obtain ⟨p', al, n, h1, h2, h3, h4, _⟩ := h.found
          have := (prepare_iff (o := o) (b := o.constraints)).2 ⟨h3, h.named, h4, pgBounds_iff.2 ⟨h.bounds, h.nonempty, h.order⟩⟩
          rw [show (install o p).bounds = o.constraints from rfl, this] at hq
          cases hq
        | ok v =>
          obtain ⟨al, n, lo, hi⟩ := v
          obtain ⟨h3, h5, h4, h6⟩ := prepare_iff.1 hq
          obtain ⟨h6, h7, h8⟩ := pgBounds_iff.1 h6
          simp only
          cases he : ((lib.evolve w.runs al lo hi n a.frequency).run ((install o p).objective (install o p).sim (install o p).conf) w.s).1 with
          | error e =>
            refine Or.inr ⟨fun o' lo' hi' c h => ?_, rfl, _, rfl⟩
            obtain rfl : o = o' := by simpa [ho] using h.study
            obtain ⟨p', al', n', g1, g2, g3, g4, g5⟩ := h.found
            obtain rfl : p = p' := by simpa [hp] using g1
            obtain rfl : al = al' := by simpa [h3] using g3
            obtain rfl : n = n' := by simpa [h4] using g4
            have e1 : lo = lo' ∧ hi = hi' := by
              have hb := h.bounds
              cases hc : o.constraints with
              | none => rw [hc] at hb; cases hb
              | dict k => rw [hc] at hb; cases hb
              | flat l =>
                rw [hc] at hb
                have h6' : Spec.Given (Bounds.flat l) lo hi := hc ▸ h6
                cases hb; cases h6'; exact ⟨rfl, rfl⟩
              | nested l =>
                rw [hc] at hb
                have h6' : Spec.Given (Bounds.nested l) lo hi := hc ▸ h6
                cases hb; cases h6'; exact ⟨rfl, rfl⟩
            obtain ⟨rfl, rfl⟩ := e1
            have : ((lib.evolve w.runs al lo hi n a.frequency).run (p.objective (some o.sim) (some o.simConf)) w.s).1 = .error e := he
            rw [this] at g5
            cases g5
          | ok c =>
            exact Or.inl ⟨o, lo, hi, c, _, ⟨ho, h6, h8, h7, h5, p, al, n, hp, hr, h3, h4, he⟩, (finish_recorded lib a o c).1, rfl,
              (finish_recorded lib a o c).2⟩

/-- The answer is determined by the state. -/
theorem answers_unique {lib : Lib K} {w : World K} {i : ORef} {a : RunArgs} {o o' : Study K} {lo hi lo' hi' : List K} {c c' : Champion K}
    (h : Spec.Answers lib w i a o lo hi c) (h' : Spec.Answers lib w i a o' lo' hi' c') : o = o' ∧ c = c' ∧ lo = lo' ∧ hi = hi' := by
  obtain rfl : o = o' := by simpa [h.study] using h'.study
  obtain ⟨p, al, n, g1, g2, g3, g4, g5⟩ := h.found
  obtain ⟨p', al', n', k1, k2, k3, k4, k5⟩ := h'.found
  obtain rfl : p = p' := by simpa [g1] using k1
  obtain rfl : al = al' := by simpa [g3] using k3
  obtain rfl : n = n' := by simpa [g4] using k4
  have e1 : lo = lo' ∧ hi = hi' := by
    have hb := h.bounds
    have hb' := h'.bounds
    cases hc : o.constraints <;> rw [hc] at hb hb'
    · cases hb
    · cases hb; cases hb'; exact ⟨rfl, rfl⟩
    · cases hb; cases hb'; exact ⟨rfl, rfl⟩
    · cases hb
  obtain ⟨rfl, rfl⟩ := e1
  rw [g5] at k5
  cases k5
  exact ⟨rfl, rfl, rfl, rfl⟩

/-! ## Results -/

/-- What a study holds as result. -/
def stored (w : World K) (i : ORef) : Option (List K × List K) := do
  let o ← w.opts[i]?
  let x ← o.bestX
  let f ← o.bestF
  some (x, f)

/-- Both parts of the result are stored or none. -/
def Whole (w : World K) : Prop := ∀ o ∈ w.opts, o.bestX.isSome = o.bestF.isSome

theorem getResults_iff {w : World K} (h : Whole w) (i : ORef) (x f : Option (List K)) :
    getResults i w = .ok (x, f) ↔ ∃ y g, stored w i = some (y, g) ∧ x = some y ∧ f = some g := by
  unfold getResults stored
  cases ho : w.opts[i]? with
  | none => simp
  | some o =>
    have := h o (List.mem_of_getElem? ho)
    cases hx : o.bestX <;> cases hf : o.bestF <;> simp [hx, hf] at this ⊢
    exact ⟨fun h => ⟨h.1.symm, h.2.symm⟩, fun h => ⟨h.1.symm, h.2.symm⟩⟩

theorem Study.init_bare {lib : Lib K} {own : Option Conf} {a : Args K} {o : Study K} (h : Study.init lib own a = .ok o) :
    o.bestX = none ∧ o.bestF = none ∧ o.constraints = a.constraints ∧ o.problem = a.problem ∧ o.params = a.params := by
  simp only [Study.init, bind_eq_ok] at h
  obtain ⟨sc, _, c, _, ⟨x, m⟩, _, h⟩ := h
  cases h
  exact ⟨rfl, rfl, rfl, rfl, rfl⟩

theorem modify_stored (w : World K) (k i : ORef) (g : Study K → Study K) (hx : ∀ o, (g o).bestX = o.bestX) (hf : ∀ o, (g o).bestF = o.bestF) :
    stored { w with opts := w.opts.modify k g } i = stored w i := by
  unfold stored
  simp only [List.getElem?_modify]
  cases w.opts[i]? with
  | none => simp
  | some o => by_cases hk : k = i <;> simp [hk, hx, hf]

theorem mem_modify {α : Type} {l : List α} {k : Nat} {g : α → α} {x : α} (h : x ∈ l.modify k g) : x ∈ l ∨ ∃ y ∈ l, x = g y := by
  obtain ⟨n, hn⟩ := List.mem_iff_getElem?.1 h
  rw [List.getElem?_modify] at hn
  cases hl : l[n]? with
  | none => simp [hl] at hn
  | some y =>
    have hy := List.mem_of_getElem? hl
    by_cases hk : k = n
    · simp only [hl, hk, if_true, Option.map_eq_map, Option.map_some, Option.some.injEq] at hn; exact Or.inr ⟨y, hy, hn.symm⟩
    · simp only [hl, hk, if_false, Option.map_eq_map, Option.map_some, Option.some.injEq, id] at hn; exact Or.inl (hn ▸ hy)

theorem stored_append (w : World K) (o : Study K) (h : o.bestX = none) (i : ORef) :
    stored { w with opts := w.opts ++ [o] } i = stored w i := by
  unfold stored
  simp only [List.getElem?_append]
  split
  · rfl
  · next hi =>
    rw [List.getElem?_eq_none (Nat.not_lt.1 hi)]
    cases hk : [o][i - w.opts.length]? with
    | none => rfl
    | some o' =>
      obtain rfl : o' = o := by simpa using List.mem_of_getElem? hk
      simp [h]

theorem whole_exec {ext : Ext K} {I : Interp K} {lib : Lib K} {w : World K} (h : Whole w) (o : Op K) : Whole (o.exec ext I lib w) := by
  cases o with
  | sim o => exact h
  | newProblem d n b m s f => exact h
  | call j => exact h
  | setBounds j b => exact h
  | setDirection j b => exact h
  | newStudy a =>
    simp only [Op.exec]
    split
    · next o ho =>
      intro o' ho'
      rcases List.mem_append.1 ho' with h1 | h1
      · exact h o' h1
      · simp only [List.mem_singleton] at h1; subst h1; simp [Study.init_bare ho]
    · exact h
  | setConstraints k b => exact fun o ho => by rcases mem_modify ho with h1 | ⟨y, h1, rfl⟩; exacts [h o h1, h y h1]
  | setProblem k j => exact fun o ho => by rcases mem_modify ho with h1 | ⟨y, h1, rfl⟩; exacts [h o h1, h y h1]
  | run k a =>
    simp only [Op.exec]
    intro o ho
    rcases run_cases lib k a w with ⟨o1, lo, hi, c, o', _, h2, h3, _⟩ | ⟨_, h3, _⟩
    · rw [h3] at ho
      rcases List.mem_or_eq_of_mem_set ho with h4 | rfl
      · exact h o h4
      · rw [h2]; rfl
    · rw [h3] at ho; exact h o ho

theorem whole_history {ext : Ext K} {I : Interp K} {lib : Lib K} (ops : List (Op K)) : Whole (history ext I lib ops) := by
  induction ops using List.reverseRecOn with
  | nil => intro o ho; simp [history] at ho
  | append_singleton l o ih => rw [history_append]; exact whole_exec ih o

/-- Calls other than an answered run of the study keep its result. -/
theorem stored_exec {ext : Ext K} {I : Interp K} {lib : Lib K} (w : World K) (op : Op K) (i : ORef)
    (h : ∀ a o lo hi c, op = .run i a → ¬ Spec.Answers lib w i a o lo hi c) : stored (op.exec ext I lib w) i = stored w i := by
  cases op with
  | sim o => rfl
  | newProblem d n b m s f => rfl
  | call j => rfl
  | setBounds j b => rfl
  | setDirection j b => rfl
  | newStudy a =>
    simp only [Op.exec]
    split
    · next o ho => exact stored_append w o (Study.init_bare ho).1 i
    · rfl
  | setConstraints k b => exact modify_stored w k i _ (fun _ => rfl) fun _ => rfl
  | setProblem k j => exact modify_stored w k i _ (fun _ => rfl) fun _ => rfl
  | run k a =>
    simp only [Op.exec]
    rcases run_cases lib k a w with ⟨o1, lo, hi, c, o', h1, _, h3, _⟩ | ⟨_, h3, _⟩
    · have hk : k ≠ i := by rintro rfl; exact h a o1 lo hi c rfl h1
      unfold stored
      rw [h3, List.getElem?_set_ne hk]
    · unfold stored; rw [h3]

theorem stored_run {ext : Ext K} {I : Interp K} {lib : Lib K} {w : World K} {i : ORef} {a : RunArgs} {o : Study K} {lo hi : List K} {c : Champion K}
    (h : Spec.Answers lib w i a o lo hi c) : stored ((Op.run i a).exec ext I lib w) i = some (c.x, c.f) := by
  simp only [Op.exec]
  rcases run_cases lib i a w with ⟨o1, lo1, hi1, c1, o', h1, h2, h3, _⟩ | ⟨h1, _⟩
  · obtain ⟨rfl, rfl, _⟩ := answers_unique h h1
    unfold stored
    rw [h3, List.getElem?_set_self (List.getElem?_eq_some_iff.1 h.study).1, h2]
    rfl
  · exact absurd h (h1 o lo hi c)

/-- The last run of study `i` in the session to which the library answered, with the state it was in, and its answer. -/
def Spec.LastAnswer (ext : Ext K) (I : Interp K) (lib : Lib K) (ops : List (Op K)) (i : ORef) (pre : List (Op K)) (o : Study K) (lo hi : List K)
    (c : Champion K) : Prop :=
  ∃ a post, ops = pre ++ Op.run i a :: post ∧ Spec.Answers lib (history ext I lib pre) i a o lo hi c ∧
    ∀ pre' a' post' o' lo' hi' c', post = pre' ++ Op.run i a' :: post' →
      ¬ Spec.Answers lib (history ext I lib (pre ++ Op.run i a :: pre')) i a' o' lo' hi' c'

theorem stored_history {ext : Ext K} {I : Interp K} {lib : Lib K} (ops : List (Op K)) (i : ORef) (x f : List K) :
    stored (history ext I lib ops) i = some (x, f) ↔ ∃ pre o lo hi c, Spec.LastAnswer ext I lib ops i pre o lo hi c ∧ c.x = x ∧ c.f = f := by
  induction ops using List.reverseRecOn with
  | nil =>
    simp only [history, List.foldl_nil, stored]
    constructor
    · intro h; simp at h
    · rintro ⟨pre, o, lo, hi, c, ⟨a, post, h, _⟩, _⟩; simp at h
  | append_singleton l op ih =>
    rw [history_append]
    by_cases hc : ∃ a o lo hi c, op = .run i a ∧ Spec.Answers lib (history ext I lib l) i a o lo hi c
    · obtain ⟨a, o, lo, hi, c, rfl, h⟩ := hc
      rw [stored_run h]
      constructor
      · intro g
        cases g
        exact ⟨l, o, lo, hi, c, ⟨a, [], rfl, h, fun pre' _ _ _ _ _ _ g => by simp at g⟩, rfl, rfl⟩
      · rintro ⟨pre, o', lo', hi', c', ⟨a', post, g1, g2, g3⟩, rfl, rfl⟩
        rcases List.eq_nil_or_concat post with rfl | ⟨post', q, rfl⟩
        · obtain ⟨rfl, g⟩ := List.append_inj' g1 rfl
          cases g
          obtain ⟨_, rfl, _⟩ := answers_unique h g2
          rfl
        · rw [List.concat_eq_append, ← List.cons_append, ← List.append_assoc] at g1
          obtain ⟨rfl, g⟩ := List.append_inj' g1 rfl
          cases g
          exact absurd h (g3 post' a [] o lo hi c (by simp))
    · rw [stored_exec _ _ _ fun a o lo hi c ho h => hc ⟨a, o, lo, hi, c, ho, h⟩, ih]
      constructor
      · rintro ⟨pre, o, lo, hi, c, ⟨a, post, rfl, g2, g3⟩, h⟩
        refine ⟨pre, o, lo, hi, c, ⟨a, post ++ [op], by simp, g2, fun pre' a' post' o' lo' hi' c' e => ?_⟩, h⟩
        rcases List.eq_nil_or_concat post' with rfl | ⟨post'', q, rfl⟩
        · obtain ⟨rfl, e⟩ := List.append_inj' e rfl
          obtain rfl : op = .run i a' := by simpa using e
          exact fun k => hc ⟨a', o', lo', hi', c', rfl, k⟩
        · rw [List.concat_eq_append, ← List.cons_append, ← List.append_assoc] at e
          exact g3 pre' a' post'' o' lo' hi' c' (List.append_inj' e rfl).1
      · rintro ⟨pre, o, lo, hi, c, ⟨a, post, g1, g2, g3⟩, h⟩
        rcases List.eq_nil_or_concat post with rfl | ⟨post', q, rfl⟩
        · obtain ⟨rfl, g⟩ := List.append_inj' g1 rfl
          cases g
          exact absurd ⟨a, o, lo, hi, c, rfl, g2⟩ hc
        · rw [List.concat_eq_append, ← List.cons_append, ← List.append_assoc] at g1
          obtain ⟨rfl, g⟩ := List.append_inj' g1 rfl
          exact ⟨pre, o, lo, hi, c, ⟨a, post', rfl, g2, fun pre' a' post'' o' lo' hi' c' e =>
            g3 pre' a' (post'' ++ [q]) o' lo' hi' c' (by rw [e]; simp)⟩, h⟩

/-- C46: `getResults` returns after a session exactly if the optimizer answered in some run of the study, and then what it answered in
the last such run; otherwise it raises. -/
theorem results_recorded {ext : Ext K} {I : Interp K} {lib : Lib K} (ops : List (Op K)) (i : ORef) (x f : Option (List K)) :
    getResults i (history ext I lib ops) = .ok (x, f) ↔
      ∃ pre o lo hi c, Spec.LastAnswer ext I lib ops i pre o lo hi c ∧ x = some c.x ∧ f = some c.f := by
  rw [getResults_iff (whole_history ops)]
  constructor
  · rintro ⟨y, g, h, rfl, rfl⟩
    obtain ⟨pre, o, lo, hi, c, h', rfl, rfl⟩ := (stored_history ops i y g).1 h
    exact ⟨pre, o, lo, hi, c, h', rfl, rfl⟩
  · rintro ⟨pre, o, lo, hi, c, h, rfl, rfl⟩
    exact ⟨c.x, c.f, (stored_history ops i c.x c.f).2 ⟨pre, o, lo, hi, c, h, rfl, rfl⟩, rfl, rfl⟩

/-- C46: without a run it raises. -/
theorem results_before_run {ext : Ext K} {I : Interp K} {lib : Lib K} {ops : List (Op K)} {i : ORef} (h : ∀ a, Op.run i a ∉ ops) :
    ∃ e, getResults i (history ext I lib ops) = .error e := by
  cases hg : getResults i (history ext I lib ops) with
  | error e => exact ⟨e, rfl⟩
  | ok v =>
    obtain ⟨pre, o, lo, hi, c, ⟨a, post, rfl, _⟩, _⟩ := (results_recorded ops i v.1 v.2).1 hg
    exact absurd (by simp) (h a)

/-- C46: a run that returns stores the answer of the optimizer. -/
theorem run_ok_answers {lib : Lib K} {w w' : World K} {i : ORef} {a : RunArgs} (h : runOptimization lib i a w = (.ok (), w')) :
    ∃ o lo hi c, Spec.Answers lib w i a o lo hi c ∧ getResults i w' = .ok (some c.x, some c.f) ∧ (w'.opts[i]?.map (·.success)) = some true := by
  rcases run_cases lib i a w with ⟨o, lo, hi, c, o', h1, h2, h3, h4⟩ | ⟨_, _, e, h3⟩
  · rw [h] at h3 h4
    have hi' := (List.getElem?_eq_some_iff.1 h1.study).1
    refine ⟨o, lo, hi, c, h1, ?_, ?_⟩
    · unfold getResults
      simp only at h3
      rw [h3, List.getElem?_set_self hi', h2]
      simp
    · simp only at h3
      rw [h3, List.getElem?_set_self hi']
      simp [h4 rfl]
  · rw [h] at h3; cases h3

theorem run_probs (lib : Lib K) (i : ORef) (a : RunArgs) (w : World K) :
    (runOptimization lib i a w).2.probs = w.probs ∨
    ∃ o p, w.probs[o.problem]? = some p ∧ (runOptimization lib i a w).2.probs = w.probs.set o.problem (install o p) := by
  unfold runOptimization
  split
  · exact Or.inl rfl
  · next o _ =>
    split
    · exact Or.inl rfl
    · next q hq =>
      split
      · exact Or.inl rfl
      · simp only
        split
        · exact Or.inr ⟨o, q, hq, rfl⟩
        · split <;> exact Or.inr ⟨o, q, hq, rfl⟩

/-- What a call does to an existing problem. -/
theorem probs_exec (ext : Ext K) (I : Interp K) (lib : Lib K) {w : World K} (op : Op K) {j : PRef} {p : Problem K} (h : w.probs[j]? = some p) :
    ∃ p', (op.exec ext I lib w).probs[j]? = some p' ∧ (op ≠ .call j → p'.ready = p.ready) ∧
      ((∀ b, op ≠ .setDirection j b) → p'.isMax = p.isMax) := by
  have md : ∀ (k : PRef) (g : Problem K → Problem K), (w.probs.modify k g)[j]? = some (if k = j then g p else p) := by
    intro k g
    rw [List.getElem?_modify, h]
    split <;> rfl
  cases op with
  | sim o => exact ⟨p, h, fun _ => rfl, fun _ => rfl⟩
  | newProblem d n b m s f =>
    exact ⟨p, by simp only [Op.exec]; rw [List.getElem?_append_left (List.getElem?_eq_some_iff.1 h).1, h], fun _ => rfl, fun _ => rfl⟩
  | call k =>
    refine ⟨_, md k Problem.call, fun hk => ?_, fun _ => ?_⟩
    · rw [if_neg (fun e => hk (by rw [e]))]
    · split <;> rfl
  | setBounds k b => exact ⟨_, md k (fun p => { p with bounds := b }), fun _ => by split <;> rfl, fun _ => by split <;> rfl⟩
  | setDirection k b =>
    refine ⟨_, md k (fun p => { p with isMax := b }), fun _ => by split <;> rfl, fun hk => ?_⟩
    rw [if_neg (fun e => hk b (by rw [e]))]
  | newStudy a => simp only [Op.exec]; split <;> exact ⟨p, h, fun _ => rfl, fun _ => rfl⟩
  | setConstraints k b => exact ⟨p, h, fun _ => rfl, fun _ => rfl⟩
  | setProblem k k' => exact ⟨p, h, fun _ => rfl, fun _ => rfl⟩
  | run k a =>
    simp only [Op.exec]
    rcases run_probs lib k a w with h1 | ⟨o, q, hq, h1⟩
    · rw [h1]; exact ⟨p, h, fun _ => rfl, fun _ => rfl⟩
    · rw [h1]
      by_cases hk : o.problem = j
      · subst hk
        rw [h] at hq; cases hq
        exact ⟨_, List.getElem?_set_self (List.getElem?_eq_some_iff.1 h).1, fun _ => rfl, fun _ => rfl⟩
      · exact ⟨p, by rw [List.getElem?_set_ne hk]; exact h, fun _ => rfl, fun _ => rfl⟩

/-- A problem that did not exist before a call is new. -/
theorem probs_new (ext : Ext K) (I : Interp K) (lib : Lib K) {w : World K} (op : Op K) {j : PRef} {p : Problem K} (h : w.probs[j]? = none)
    (hp : (op.exec ext I lib w).probs[j]? = some p) : p.ready = false ∧ p.isMax = false := by
  have md : ∀ (k : PRef) (g : Problem K → Problem K), (w.probs.modify k g)[j]? = none := by
    intro k g
    rw [List.getElem?_modify, h]
    split <;> rfl
  cases op with
  | sim o => simp [Op.exec, h] at hp
  | newProblem d n b m s f =>
    simp only [Op.exec, List.getElem?_append, h] at hp
    split at hp
    · simp at hp
    · have := List.mem_of_getElem? hp
      simp only [List.mem_singleton] at this
      rw [this]; exact ⟨rfl, rfl⟩
  | call k => rw [show ((Op.call k).exec ext I lib w).probs[j]? = none from md k Problem.call] at hp; cases hp
  | setBounds k b => rw [show ((Op.setBounds k b).exec ext I lib w).probs[j]? = none from md k _] at hp; cases hp
  | setDirection k b => rw [show ((Op.setDirection k b).exec ext I lib w).probs[j]? = none from md k _] at hp; cases hp
  | newStudy a => simp only [Op.exec] at hp; split at hp <;> simp [h] at hp
  | setConstraints k b => simp [Op.exec, h] at hp
  | setProblem k k' => simp [Op.exec, h] at hp
  | run k a =>
    simp only [Op.exec] at hp
    rcases run_probs lib k a w with h1 | ⟨o, q, hq, h1⟩
    · rw [h1, h] at hp; cases hp
    · have hk : o.problem ≠ j := by rintro rfl; rw [h] at hq; cases hq
      rw [h1, List.getElem?_set_ne hk, h] at hp; cases hp

/-- A problem that was never called is not ready. -/
theorem not_ready {ext : Ext K} {I : Interp K} {lib : Lib K} {ops : List (Op K)} {j : PRef} (h : Op.call j ∉ ops) {p : Problem K}
    (hp : (history ext I lib ops).probs[j]? = some p) : p.ready = false := by
  induction ops using List.reverseRecOn generalizing p with
  | nil => simp [history] at hp
  | append_singleton l op ih =>
    rw [history_append] at hp
    cases hq : (history ext I lib l).probs[j]? with
    | none => exact (probs_new ext I lib op hq hp).1
    | some q =>
      obtain ⟨p', h1, h2, _⟩ := probs_exec ext I lib op hq
      rw [hp] at h1
      cases h1
      rw [h2 fun e => h (by simp [e])]
      exact ih (fun hm => h (by simp [hm])) hq

/-- C46: a study whose problem was never called is rejected, and nothing is changed. -/
theorem unready_rejected {ext : Ext K} {I : Interp K} {lib : Lib K} {ops : List (Op K)} {i : ORef} (a : RunArgs) {o : Study K}
    (ho : (history ext I lib ops).opts[i]? = some o) (h : Op.call o.problem ∉ ops) :
    ∃ e, runOptimization lib i a (history ext I lib ops) = (.error e, history ext I lib ops) ∧
      ((∀ k, o.constraints ≠ .dict k) → (o.problem < (history ext I lib ops).probs.length) → e = .absentRequiredObject) := by
  unfold runOptimization
  simp only [ho]
  cases hp : (history ext I lib ops).probs[o.problem]? with
  | none => exact ⟨_, rfl, fun _ h => absurd h (by simpa using hp)⟩
  | some p =>
    have hr := not_ready h hp
    simp only
    have : ∃ e, sane o p = .error e ∧ ((∀ k, o.constraints ≠ .dict k) → e = .absentRequiredObject) := by
      unfold sane
      simp only [hr, Bool.false_eq_true, if_false]
      cases hc : o.constraints with
      | none => exact ⟨_, rfl, fun _ => rfl⟩
      | flat l => exact ⟨_, rfl, fun _ => rfl⟩
      | nested l => exact ⟨_, rfl, fun _ => rfl⟩
      | dict k =>
        cases hk : checkParams k o.params with
        | error e => exact ⟨e, by simp only [hk]; rfl, fun h => absurd rfl (h k)⟩
        | ok u => exact ⟨_, by simp only [hk]; rfl, fun _ => rfl⟩
    obtain ⟨e, he, hd⟩ := this
    rw [he]
    exact ⟨e, rfl, fun h _ => hd h⟩

/-- C46: constraints given by name must name every parameter. -/
theorem unnamed_rejected {lib : Lib K} {w : World K} {i : ORef} (a : RunArgs) {o : Study K} {keys : List String}
    (ho : w.opts[i]? = some o) (hc : o.constraints = .dict keys) {n : String} (hn : n ∉ keys)
    (hq : ((∀ q ∈ o.params, ∃ m, q = .quantity m) ∧ .quantity n ∈ o.params) ∨
      ((∀ q ∈ o.params, ∃ m, q = .str m) ∧ .str n ∈ o.params)) :
    ∃ e, runOptimization lib i a w = (.error e, w) ∧ (o.problem < w.probs.length → e = .absentRequiredObject) := by
  have hk : checkParams keys o.params = .error .absentRequiredObject := by
    rcases hq with ⟨h1, h2⟩ | ⟨h1, h2⟩
    · have go : ∀ l : List Param, (∀ q ∈ l, ∃ m, q = .quantity m) → .quantity n ∈ l → checkParams.go keys l = .error .absentRequiredObject := by
        intro l
        induction l with
        | nil => intro _ h; simp at h
        | cons q t ih =>
          intro g1 g2
          obtain ⟨m, rfl⟩ := g1 q (by simp)
          unfold checkParams.go
          split
          · next hm =>
            rcases List.mem_cons.1 g2 with g3 | g3
            · cases g3; exact absurd (by simpa using hm) hn
            · exact ih (fun q hq => g1 q (List.mem_cons_of_mem _ hq)) g3
          · rfl
      cases hp : o.params with
      | nil => rw [hp] at h2; simp at h2
      | cons q t =>
        rw [hp] at h1 h2
        obtain ⟨m, rfl⟩ := h1 q (by simp)
        unfold checkParams
        exact go _ h1 h2
    · cases hp : o.params with
      | nil => rw [hp] at h2; simp at h2
      | cons q t =>
        rw [hp] at h1 h2
        obtain ⟨m, rfl⟩ := h1 q (by simp)
        refine if_neg fun hall => ?_
        have := List.all_eq_true.1 hall _ h2
        exact hn (by simpa using this)
  unfold runOptimization
  simp only [ho]
  cases hp : w.probs[o.problem]? with
  | none => exact ⟨_, rfl, fun h => absurd h (by simpa using hp)⟩
  | some p =>
    have : sane o p = .error .absentRequiredObject := by
      unfold sane
      rw [hc]
      simp only [hk]
      rfl
    simp only [this]
    exact ⟨_, rfl, fun _ => rfl⟩

/-! ## Direction and bounds -/

/-- C45 (direction of the comparison): after `problem.is_maximization = b` the comparison prefers larger values exactly if `b`, as long as the
attribute is not assigned again. -/
theorem direction_partial {ext : Ext K} {I : Interp K} {lib : Lib K} {pre post : List (Op K)} {j : PRef} {b : Bool}
    (hj : j < (history ext I lib pre).probs.length) (hpost : ∀ b', Op.setDirection j b' ∉ post) :
    ∃ p, (history ext I lib (pre ++ Op.setDirection j b :: post)).probs[j]? = some p ∧
      ∀ (x y : K) (s t : List K), p.compare (x :: s) (y :: t) = .ok (decide (if b then y < x else x < y)) := by
  have key : ∃ p, (history ext I lib (pre ++ Op.setDirection j b :: post)).probs[j]? = some p ∧ p.isMax = b := by
    induction post using List.reverseRecOn with
    | nil =>
      rw [history_append]
      exact ⟨{ (history ext I lib pre).probs[j] with isMax := b }, by simp [Op.exec, List.getElem?_modify, List.getElem?_eq_getElem hj], rfl⟩
    | append_singleton l op ih =>
      rw [show pre ++ Op.setDirection j b :: (l ++ [op]) = (pre ++ Op.setDirection j b :: l) ++ [op] by simp, history_append]
      obtain ⟨q, hq, hb⟩ := ih fun b' hm => hpost b' (by simp [hm])
      obtain ⟨p', h1, _, h2⟩ := probs_exec ext I lib op hq
      exact ⟨p', h1, by rw [h2 fun b' e => hpost b' (by simp [e]), hb]⟩
  obtain ⟨p, hp, key⟩ := key
  refine ⟨p, hp, fun x y s t => ?_⟩
  simp only [Problem.compare, key]
  cases b <;> simp

/-- C45 fails for the argument `is_maximization`, of problems and of studies: unless the attribute is assigned, every comparison prefers smaller
values. -/
theorem direction_argument_ignored {ext : Ext K} {I : Interp K} {lib : Lib K} {ops : List (Op K)} (h : ∀ j b, Op.setDirection j b ∉ ops)
    {j : PRef} {p : Problem K} (hp : (history ext I lib ops).probs[j]? = some p) (x y : K) (s t : List K) :
    p.compare (x :: s) (y :: t) = .ok (decide (x < y)) := by
  have key : p.isMax = false := by
    induction ops using List.reverseRecOn generalizing p with
    | nil => simp [history] at hp
    | append_singleton l op ih =>
      rw [history_append] at hp
      cases hq : (history ext I lib l).probs[j]? with
      | none => exact (probs_new ext I lib op hq hp).2
      | some q =>
        obtain ⟨p', h1, _, h2⟩ := probs_exec ext I lib op hq
        rw [hp] at h1
        cases h1
        rw [h2 fun b e => h j b (by simp [e])]
        exact ih (fun k b hm => h k b (by simp [hm])) hq
  simp [Problem.compare, key]

/-- A call with every direction and every bound of a problem forgotten (constraints of studies are kept). -/
def Spec.forget : Op K → Op K
  | .newProblem d n _ _ s f => .newProblem d n .none false s f
  | .setBounds j _ => .setBounds j .none
  | .setDirection j _ => .setDirection j false
  | .newStudy a => .newStudy { a with isMax := false }
  | o => o

def normP (p : Problem K) : Problem K := { p with isMax := false, bounds := .none }
def normO (o : Study K) : Study K := { o with isMax := false }
def norm (w : World K) : World K := { w with probs := w.probs.map normP, opts := w.opts.map normO }

theorem map_modify_comm {α β : Type} (l : List α) (k : Nat) (f : α → α) (f' : β → β) (g : α → β) (h : ∀ x, g (f x) = f' (g x)) :
    (l.modify k f).map g = (l.map g).modify k f' := by
  refine List.ext_getElem? fun n => ?_
  simp only [List.getElem?_map, List.getElem?_modify]
  cases l[n]? with
  | none => rfl
  | some x => by_cases hk : k = n <;> simp [hk, h]

theorem map_modify_same {α β : Type} (l : List α) (k : Nat) (f : α → α) (g : α → β) (h : ∀ x, g (f x) = g x) : (l.modify k f).map g = l.map g := by
  refine List.ext_getElem? fun n => ?_
  simp only [List.getElem?_map, List.getElem?_modify]
  cases l[n]? with
  | none => rfl
  | some x => by_cases hk : k = n <;> simp [hk, h]

theorem finish_norm (lib : Lib K) (a : RunArgs) (o : Study K) (c : Champion K) :
    (finish lib a (normO o) c).1 = (finish lib a o c).1 ∧ (finish lib a (normO o) c).2 = normO (finish lib a o c).2 := by
  rcases a with ⟨fr, lg, gr⟩
  unfold finish normO
  cases lg <;> cases gr
  · exact ⟨rfl, rfl⟩
  · simp only [if_true, if_false, Bool.false_eq_true]; cases graph lib o.log <;> exact ⟨rfl, rfl⟩
  · exact ⟨rfl, rfl⟩
  · simp only [if_true]; cases graph lib (some c.rows) <;> exact ⟨rfl, rfl⟩

theorem run_norm (lib : Lib K) (i : ORef) (a : RunArgs) (w : World K) :
    norm (runOptimization lib i a w).2 = norm (runOptimization lib i a (norm w)).2 := by
  have nn : norm (norm w) = norm w := by simp [norm, Function.comp_def, normP, normO]
  have nP : ∀ p : Problem K, normP (normP p) = normP p := fun _ => rfl
  have nO : ∀ o : Study K, normO (normO o) = normO o := fun _ => rfl
  have nI : ∀ (o : Study K) (p : Problem K), normP (install (normO o) (normP p)) = normP (install o p) := fun _ _ => rfl
  have nj : ∀ o : Study K, (normO o).problem = o.problem := fun _ => rfl
  unfold runOptimization
  simp only [show (norm w).opts[i]? = (w.opts[i]?).map normO by simp [norm], show (norm w).runs = w.runs from rfl,
    show (norm w).s = w.s from rfl]
  cases w.opts[i]? with
  | none => exact nn.symm
  | some o =>
    simp only [Option.map_some, show (norm w).probs[(normO o).problem]? = (w.probs[o.problem]?).map normP by simp [norm, normO]]
    cases w.probs[o.problem]? with
    | none => exact nn.symm
    | some p =>
      simp only [Option.map_some, show sane (normO o) (normP p) = sane o p from rfl]
      cases sane o p with
      | error e => exact nn.symm
      | ok u =>
        simp only [show prepare (normO o) (install (normO o) (normP p)).bounds = prepare o (install o p).bounds from rfl]
        cases prepare o (install o p).bounds with
        | error e => simp [norm, Function.comp_def, nP, nO, nI, nj, List.map_set]
        | ok v =>
          obtain ⟨al, n, lo, hi⟩ := v
          simp only [show (install (normO o) (normP p)).objective (install (normO o) (normP p)).sim (install (normO o) (normP p)).conf =
            (install o p).objective (install o p).sim (install o p).conf from rfl]
          cases ((lib.evolve w.runs al lo hi n a.frequency).run ((install o p).objective (install o p).sim (install o p).conf) w.s).1 with
          | error e => simp [norm, Function.comp_def, nP, nO, nI, nj, List.map_set]
          | ok c =>
            simp only [(finish_norm lib a o c).2]
            simp [norm, Function.comp_def, nP, nO, nI, nj, List.map_set]

theorem init_norm (lib : Lib K) (own : Option Conf) (a : Args K) :
    Study.init lib own { a with isMax := false } = (Study.init lib own a).map normO := by
  unfold Study.init
  cases simulationConf own a.simConf with
  | error e => rfl
  | ok sc =>
    cases optConf a.conf with
    | error e => rfl
    | ok c =>
      cases h : setOptimizer lib c a.optimizer with
      | error e => simp only [bind, Except.bind, h]; rfl
      | ok v => simp only [bind, Except.bind, h]; rfl

theorem exec_norm (ext : Ext K) (I : Interp K) (lib : Lib K) (w : World K) (op : Op K) :
    norm (op.exec ext I lib w) = norm ((Spec.forget op).exec ext I lib (norm w)) := by
  have nn : norm (norm w) = norm w := by simp [norm, Function.comp_def, normP, normO]
  have nP : ∀ p : Problem K, normP (normP p) = normP p := fun _ => rfl
  have nO : ∀ o : Study K, normO (normO o) = normO o := fun _ => rfl
  cases op with
  | sim o => simp [Op.exec, Spec.forget, norm, Function.comp_def, nP, nO]
  | newProblem d n b m s f => simp [Op.exec, Spec.forget, norm, Function.comp_def, nP, nO, Problem.init]
  | call k =>
    simp only [Op.exec, Spec.forget, norm, World.mk.injEq, true_and, and_true, List.map_map, Function.comp_def, nO]
    rw [map_modify_comm _ k Problem.call Problem.call normP fun _ => rfl, map_modify_comm _ k Problem.call Problem.call normP fun _ => rfl]
    simp [Function.comp_def, nP]
  | setBounds k b =>
    simp only [Op.exec, Spec.forget, norm, World.mk.injEq, true_and, and_true, List.map_map, Function.comp_def, nO]
    rw [map_modify_same _ k (fun p : Problem K => { p with bounds := b }) normP fun _ => rfl,
      map_modify_same _ k (fun p : Problem K => { p with bounds := .none }) normP fun _ => rfl]
    simp [Function.comp_def, nP]
  | setDirection k b =>
    simp only [Op.exec, Spec.forget, norm, World.mk.injEq, true_and, and_true, List.map_map, Function.comp_def, nO]
    rw [map_modify_same _ k (fun p : Problem K => { p with isMax := b }) normP fun _ => rfl,
      map_modify_same _ k (fun p : Problem K => { p with isMax := false }) normP fun _ => rfl]
    simp [Function.comp_def, nP]
  | newStudy a =>
    simp only [Op.exec, Spec.forget, show ownConf (norm w) a.sim = ownConf w a.sim from rfl, init_norm]
    cases Study.init lib (ownConf w a.sim) a with
    | error e => exact nn.symm
    | ok o => simp [Except.map, norm, Function.comp_def, nP, nO]
  | setConstraints k b =>
    simp only [Op.exec, Spec.forget, norm, World.mk.injEq, true_and, and_true, List.map_map, Function.comp_def, nP]
    rw [map_modify_comm _ k (fun o : Study K => { o with constraints := b }) (fun o => { o with constraints := b }) normO fun _ => rfl,
      map_modify_comm _ k (fun o : Study K => { o with constraints := b }) (fun o => { o with constraints := b }) normO fun _ => rfl]
    simp [Function.comp_def, nO]
  | setProblem k j =>
    simp only [Op.exec, Spec.forget, norm, World.mk.injEq, true_and, and_true, List.map_map, Function.comp_def, nP]
    rw [map_modify_comm _ k (fun o : Study K => { o with problem := j }) (fun o => { o with problem := j }) normO fun _ => rfl,
      map_modify_comm _ k (fun o : Study K => { o with problem := j }) (fun o => { o with problem := j }) normO fun _ => rfl]
    simp [Function.comp_def, nO]
  | run k a => exact run_norm lib k a w

theorem history_norm (ext : Ext K) (I : Interp K) (lib : Lib K) (ops : List (Op K)) :
    norm (history ext I lib ops) = norm (history ext I lib (ops.map Spec.forget)) := by
  induction ops using List.reverseRecOn with
  | nil => rfl
  | append_singleton l op ih =>
    rw [List.map_append, List.map_cons, List.map_nil, history_append, history_append, exec_norm, ih,
      exec_norm ext I lib (history ext I lib (l.map Spec.forget)) (Spec.forget op)]
    have : Spec.forget (Spec.forget op) = Spec.forget op := by cases op <;> rfl
    rw [this]

/-- C45: the direction asked for, in whatever way, and bounds given to the problem never influence any result; the bounds used are the
constraints of the study. -/
theorem direction_and_problem_bounds_unused (ext : Ext K) (I : Interp K) (lib : Lib K) (ops : List (Op K)) (i : ORef) :
    getResults i (history ext I lib (ops.map Spec.forget)) = getResults i (history ext I lib ops) := by
  have h := congrArg (fun w => (World.opts w)[i]?) (history_norm ext I lib ops)
  simp only [norm, List.getElem?_map] at h
  unfold getResults
  cases h1 : (history ext I lib ops).opts[i]? with
  | none =>
    cases h2 : (history ext I lib (ops.map Spec.forget)).opts[i]? with
    | none => rfl
    | some o => simp [h1, h2] at h
  | some o =>
    cases h2 : (history ext I lib (ops.map Spec.forget)).opts[i]? with
    | none => simp [h1, h2] at h
    | some o' =>
      simp only [h1, h2, Option.map_some, Option.some.injEq] at h
      have hx : (normO o).bestX = (normO o').bestX := congrArg Study.bestX h
      have hf : (normO o).bestF = (normO o').bestF := congrArg Study.bestF h
      simp only [normO] at hx hf
      simp only [hx, hf]

/-- A library that stays within the bounds it is given. -/
def Spec.Bounded (lib : Lib K) : Prop := ∀ n al lo hi sz v (f : List K → PyS K (List K)) s c,
  ((lib.evolve n al lo hi sz v).run f s).1 = .ok c → List.Forall₂ (· ≤ ·) lo c.x ∧ List.Forall₂ (· ≤ ·) c.x hi

/-- C45 (bounds): the result of a study lies within the constraints the study had in the run that found it. -/
theorem best_within_constraints {ext : Ext K} {I : Interp K} {lib : Lib K} (hlib : Spec.Bounded lib) {ops : List (Op K)} {i : ORef}
    {x f : Option (List K)} (h : getResults i (history ext I lib ops) = .ok (x, f)) :
    ∃ pre o lo hi c, Spec.LastAnswer ext I lib ops i pre o lo hi c ∧ Spec.Given o.constraints lo hi ∧ x = some c.x ∧
      List.Forall₂ (· ≤ ·) lo c.x ∧ List.Forall₂ (· ≤ ·) c.x hi := by
  obtain ⟨pre, o, lo, hi, c, hl, rfl, rfl⟩ := (results_recorded ops i x f).1 h
  obtain ⟨a, post, h1, h2, h3⟩ := hl
  obtain ⟨p, al, n, _, _, _, _, h4⟩ := h2.found
  exact ⟨pre, o, lo, hi, c, ⟨a, post, h1, h2, h3⟩, h2.bounds, rfl, hlib _ _ _ _ _ _ _ _ _ h4⟩

/-- Constraints that do not give two bounds — none, or a dictionary by name, the only form the sane tests look at — never lead to a result. -/
theorem other_constraints_never_run {lib : Lib K} {w : World K} {i : ORef} (a : RunArgs) {o : Study K} (ho : w.opts[i]? = some o)
    (hc : o.constraints = .none ∨ ∃ k, o.constraints = .dict k) :
    (∃ e, (runOptimization lib i a w).1 = .error e) ∧ (runOptimization lib i a w).2.opts = w.opts := by
  rcases run_cases lib i a w with ⟨o1, lo, hi, c, o', h1, _⟩ | ⟨_, h2, h3⟩
  · obtain rfl : o = o1 := by simpa [ho] using h1.study
    have hb := h1.bounds
    rcases hc with hc | ⟨k, hc⟩ <;> rw [hc] at hb <;> cases hb
  · exact ⟨h3, h2⟩

/-! ## Settings -/

/-- C63: settings given as a dictionary replace the defaults key by key. -/
theorem opt_settings {d c : Conf} (hd : DNodup d) (h : optConf (.dict d) = .ok c) (k : String) : dget c k = (dget d k).or (dget defaults k) := by
  cases h
  rw [dget_dupdate _ hd]

theorem fill_args {c : Conf} {l : List (String × String)} {r : Conf} (h : fill c l = .ok r) :
    r.map Prod.fst = l.map Prod.fst ∧ ∀ a k, (a, k) ∈ l → ∃ v, dget c k = some v ∧ (a, v) ∈ r := by
  induction l generalizing r with
  | nil => cases h; simp
  | cons p t ih =>
    obtain ⟨a, k⟩ := p
    simp only [fill, bind_eq_ok, dgetE] at h
    obtain ⟨v, h1, r', h2, h3⟩ := h
    cases hv : dget c k with
    | none => simp [hv] at h1
    | some v' =>
      simp only [hv, Except.ok.injEq] at h1 h3
      subst h1 h3
      obtain ⟨g1, g2⟩ := ih h2
      refine ⟨by simp [g1], fun b m hm => ?_⟩
      rcases List.mem_cons.1 hm with e | e
      · cases e; exact ⟨v', hv, by simp⟩
      · obtain ⟨v2, e1, e2⟩ := g2 b m e; exact ⟨v2, e1, List.mem_cons_of_mem _ e2⟩

/-- The settings that shape an optimizer of this name, with the argument of the algorithm they become. -/
def Spec.shapes : String → List (String × String)
  | "ga" => [("gen", "number_of_generations"), ("cr", "crossover_rate"), ("m", "mutation_rate"), ("param_s", "selection_param"),
      ("crossover", "crossover_type"), ("mutation", "mutation_type"), ("selection", "selection_type")]
  | "sade" => [("gen", "number_of_generations"), ("ftol", "ftol_de"), ("xtol", "xtol_de")]
  | "de" => [("gen", "number_of_generations"), ("CR", "crossover_rate"), ("F", "scale_factor"), ("variant", "variant_de"), ("ftol", "ftol_de"),
      ("xtol", "xtol_de")]
  | "pso" => [("gen", "number_of_generations"), ("omega", "omega_pso"), ("eta1", "eta1_pso"), ("eta2", "eta2_pso"), ("max_vel", "max_v_pso"),
      ("variant", "variant_pso")]
  | _ => []

/-- C63: the algorithm of a study gets the settings of the study; neighbourhood settings and elitism are left out. -/
theorem opt_algorithm_partial {lib : Lib K} {own : Option Conf} {a : Args K} {o : Study K} {s : String} (hs : a.optimizer = .str s)
    (h : Study.init lib own a = .ok o) {arg key : String} (hk : (arg, key) ∈ Spec.shapes s) :
    ∃ al v, o.mechanism = some al ∧ al.kind = s ∧ dget o.conf key = some v ∧ dget al.args arg = some v := by
  simp only [Study.init, bind_eq_ok] at h
  obtain ⟨sc, _, c, _, ⟨x, m⟩, hm, h⟩ := h
  cases h
  rw [hs] at hm
  unfold setOptimizer at hm
  simp only at hm
  cases hr : recipe s with
  | none =>
    exfalso
    unfold recipe at hr
    unfold Spec.shapes at hk
    split at hr <;> simp_all
  | some r =>
    obtain ⟨keys, args, fixed⟩ := r
    simp only [hr, bind_eq_ok] at hm
    obtain ⟨_, _, r', hr', _, _, hm⟩ := hm
    cases hm
    obtain ⟨g1, g2⟩ := fill_args hr'
    obtain ⟨h1, h2⟩ : (arg, key) ∈ args ∧ (args.map Prod.fst).Nodup := by
      unfold recipe at hr
      unfold Spec.shapes at hk
      split at hr <;> simp only [Option.some.injEq, Prod.mk.injEq, reduceCtorEq] at hr <;> obtain ⟨_, rfl, _⟩ := hr <;>
        simp only [] at hk <;> refine ⟨?_, by decide⟩ <;> revert hk <;> simp <;> tauto
    obtain ⟨v, e1, e2⟩ := g2 arg key h1
    refine ⟨_, v, rfl, rfl, e1, ?_⟩
    have hn : DNodup r' := by rw [DNodup, dkeys, g1]; exact h2
    have : dget r' arg = some v := dget_of_mem hn e2
    have app : ∀ r' : Conf, dget r' arg = some v → dget (r' ++ fixed) arg = some v := by
      intro r' this
      induction r' with
      | nil => simp at this
      | cons p t ih =>
        obtain ⟨a', v'⟩ := p
        simp only [List.cons_append, dget_cons] at this ⊢
        split
        · next e => simpa [e] using this
        · next e => rw [if_neg e] at this; exact ih this
    exact app r' this

/-- C63 fails for unknown optimizers: they are accepted, as are functions, and then every run raises. -/
theorem unknown_optimizer_accepted (lib : Lib K) (c : Conf) {s : String} (h : s ∉ ["ga", "sade", "de", "pso"]) :
    setOptimizer lib c (.str s) = .ok (none, none) ∧ setOptimizer lib c .callable = .ok (none, none) := by
  refine ⟨?_, rfl⟩
  unfold setOptimizer
  have : recipe s = none := by
    unfold recipe
    split <;> simp_all
  simp [this]

theorem no_mechanism_never_runs {lib : Lib K} {w : World K} {i : ORef} (a : RunArgs) {o : Study K} (ho : w.opts[i]? = some o)
    (hm : o.mechanism = none) : (∃ e, (runOptimization lib i a w).1 = .error e) ∧ (runOptimization lib i a w).2.opts = w.opts := by
  rcases run_cases lib i a w with ⟨o1, lo, hi, c, o', h1, _⟩ | ⟨_, h2, h3⟩
  · obtain rfl : o = o1 := by simpa [ho] using h1.study
    obtain ⟨_, al, _, _, _, h, _⟩ := h1.found
    rw [hm] at h; cases h
  · exact ⟨h3, h2⟩

/-- C63 fails for settings that are asked for but not passed on: the neighbourhood of particle swarms and elitism. -/
theorem neighborhood_and_elitism_unused (lib : Lib K) (c : Conf) (v v' : CVal) :
    setOptimizer lib (dset (dset c "neighborhood_type_pso" v) "neighborhood_param_pso" v') (.str "pso") =
      setOptimizer lib (dset (dset c "neighborhood_type_pso" .none) "neighborhood_param_pso" .none) (.str "pso") ∧
    setOptimizer lib (dset c "elitism" v) (.str "ga") = setOptimizer lib (dset c "elitism" .none) (.str "ga") := by
  simp [setOptimizer, recipe, readAll, fill, dgetE, dget_dset, bind, Except.bind]

/-- The settings an optimizer of this name asks for: those that shape it, the number of individuals and some that are not used. -/
def Spec.needs (s : String) : List String :=
  (Spec.shapes s).map Prod.snd ++ (if s = "ga" then ["elitism"] else if s = "pso" then ["neighborhood_type_pso", "neighborhood_param_pso"] else []) ++
    ["number_of_individuals"]

theorem readAll_iff {c : Conf} {l : List String} : readAll c l = .ok () ↔ ∀ k ∈ l, ∃ v, dget c k = some v := by
  induction l with
  | nil => simp [readAll]
  | cons k t ih =>
    simp only [readAll, bind_eq_ok, List.forall_mem_cons, ← ih]
    constructor
    · rintro ⟨v, hv, ht⟩
      refine ⟨?_, ht⟩
      cases hk : dget c k with
      | none => simp [dgetE, hk] at hv
      | some v => exact ⟨v, rfl⟩
    · rintro ⟨⟨v, hv⟩, ht⟩
      exact ⟨v, by simp [dgetE, hv], ht⟩

theorem recipe_needs {s : String} (h : s ∈ ["ga", "sade", "de", "pso"]) : ∃ keys args fixed, recipe s = some (keys, args, fixed) ∧
    (∀ k, k ∈ keys ↔ k ∈ Spec.needs s) ∧ ∀ p ∈ args, p.2 ∈ keys := by
  simp only [List.mem_cons, List.not_mem_nil, or_false] at h
  rcases h with rfl | rfl | rfl | rfl <;>
    exact ⟨_, _, _, rfl, fun k => by simp [Spec.needs, Spec.shapes] <;> tauto, by decide⟩

/-- C63: a study with a known optimizer is created only with a value for each setting the optimizer asks for. -/
theorem optimizer_needs_settings {lib : Lib K} {own : Option Conf} {a : Args K} {o : Study K} {s : String} (hs : a.optimizer = .str s)
    (hk : s ∈ ["ga", "sade", "de", "pso"]) (h : Study.init lib own a = .ok o) : ∀ k ∈ Spec.needs s, ∃ v, dget o.conf k = some v := by
  obtain ⟨keys, args, fixed, hr, hkeys, _⟩ := recipe_needs hk
  simp only [Study.init, bind_eq_ok] at h
  obtain ⟨sc, _, c, _, ⟨x, m⟩, hm, h⟩ := h
  cases h
  rw [hs] at hm
  simp only [setOptimizer, hr, bind_eq_ok] at hm
  obtain ⟨_, hread, _⟩ := hm
  exact fun k hk => readAll_iff.1 hread k ((hkeys k).2 hk)

/-- C63: with settings from a dictionary, or none, every setting has a value: the optimizer is created unless the library refuses it.  Settings from a file are not
completed: one that lacks a setting the optimizer asks for is refused. -/
theorem optimizer_defaults_suffice (lib : Lib K) {a : ConfArg} {s : String} (hk : s ∈ ["ga", "sade", "de", "pso"]) :
    ((a = .none ∨ ∃ d, a = .dict d) → ∃ c al, optConf a = .ok c ∧ al.kind = s ∧ setOptimizer lib c (.str s) = (lib.algorithm al).map fun _ => (some s, some al)) ∧
    (∀ c, a = .file c → (∃ k ∈ Spec.needs s, dget c k = none) → optConf a = .ok c ∧ ∃ e, setOptimizer lib c (.str s) = .error e) := by
  obtain ⟨keys, args, fixed, hr, hkeys, hargs⟩ := recipe_needs hk
  constructor
  · intro ha
    obtain ⟨c, hc, hdef⟩ : ∃ c, optConf a = .ok c ∧ ∀ k ∈ dkeys defaults, ∃ v, dget c k = some v := by
      rcases ha with rfl | ⟨d, rfl⟩
      · exact ⟨defaults, rfl, fun k hk => exists_dget_of_mem hk⟩
      · exact ⟨_, rfl, fun k hk => exists_dget_of_mem ((mem_dkeys_dupdate _ _ _).2 (.inl hk))⟩
    have hall : ∀ k ∈ keys, ∃ v, dget c k = some v := by
      intro k hk'
      refine hdef k ?_
      have := (hkeys k).1 hk'
      simp only [List.mem_cons, List.not_mem_nil, or_false] at hk
      clear hkeys hr hargs hk' hdef hc
      revert this
      revert k
      rcases hk with rfl | rfl | rfl | rfl <;> decide
    have hfill : ∀ l : List (String × String), (∀ p ∈ l, ∃ v, dget c p.2 = some v) → ∃ r, fill c l = .ok r := by
      intro l
      induction l with
      | nil => intro _; exact ⟨[], rfl⟩
      | cons p t ih =>
        intro h
        obtain ⟨a', k⟩ := p
        obtain ⟨v, hv⟩ := h (a', k) (by simp)
        obtain ⟨r, hr⟩ := ih fun p hp => h p (by simp [hp])
        replace hv : dget c k = some v := hv
        exact ⟨(a', v) :: r, by simp [fill, dgetE, hv, hr, bind, Except.bind]⟩
    obtain ⟨r, hr'⟩ := hfill args fun p hp => hall _ (hargs p hp)
    refine ⟨c, ⟨s, r ++ fixed⟩, hc, rfl, ?_⟩
    simp only [setOptimizer, hr, readAll_iff.2 hall, hr', bind, Except.bind]
    cases lib.algorithm ⟨s, r ++ fixed⟩ <;> rfl
  · rintro c rfl ⟨k, hk1, hk2⟩
    refine ⟨rfl, ?_⟩
    simp only [setOptimizer, hr]
    cases hread : readAll c keys with
    | error e => exact ⟨e, rfl⟩
    | ok u =>
      obtain ⟨v, hv⟩ := readAll_iff.1 hread k ((hkeys k).2 hk1)
      rw [hk2] at hv
      cases hv

end
/-! ## Samples and counterexamples -/

/-- A library that compares the two corners of the box and answers with the better one; the log has a row per report. -/
def Ex.lib : Lib Rat where
  algorithm _ := .ok ()
  evolve _ _ lo hi _ v := .ask lo fun fl => .ask hi fun fh =>
    .ret (if (fl.headD 0) ≤ (fh.headD 0) then ⟨lo, fl, v⟩ else ⟨hi, fh, v⟩)
  plot _ := .ok ()

/-- The objective function is the parameter itself. -/
def Ex.objective : Objective Rat := fun _ _ x => PyS.pure x

/-- A session up to the first run: maximization is asked for in every possible way. -/
def Ex.prepared (constraints : Bounds Rat) (optimizer : OptArg) : List (Op Rat) :=
  [.sim (.newSim "s"), .sim (.configure 0 [] none none), .newProblem 1 "p" (.flat [5, 6]) true none Ex.objective, .call 0, .setDirection 0 true,
   .setBounds 0 (.flat [7, 8]),
   .newStudy { sim := 0, problem := 0, params := [.quantity "a"], constraints, isMax := true, optimizer }]

def Ex.world (ops : List (Op Rat)) : World Rat := history Sloth.Ex.ext Sloth.Ex.I Ex.lib ops

/-- The hypotheses of the theorems about runs are met: a run returns, with the constraints of the study as bounds. -/
example : ∃ o c, Spec.Answers Ex.lib (Ex.world (Ex.prepared (.flat [1, 2]) (.str "pso"))) 0 {} o [1] [2] c ∧ c.x = [1] ∧ c.f = [1] :=
  ⟨_, ⟨[1], [1], 0⟩, ⟨rfl, .flat 1 2, by decide +kernel, by simp, by decide, _, _, _, rfl, rfl, rfl, rfl, rfl⟩, rfl, rfl⟩

/-- The hypotheses of `optimizer_needs_settings` and `optimizer_defaults_suffice` are met: a study is created with the default settings; a file with one setting is not
enough. -/
example : (Study.init Ex.lib (some []) { sim := 0, problem := 0, params := [.quantity "a"], optimizer := .str "de" }).toOption.isSome = true ∧ "de" ∈ ["ga", "sade", "de", "pso"] ∧
    "number_of_individuals" ∈ Spec.needs "de" ∧ dget ([("weight", .num 1)] : Conf) "number_of_individuals" = none := by decide +kernel

/-- An objective function that runs the simulation with the settings stored in the problem: distance of the parameter from the first result. -/
def Ex.fit : Objective Rat := fun s c x => do
  setConfigurations (s.getD 0) [] none c
  runSimulation Sloth.Ex.ext Sloth.Ex.ratI (s.getD 0) {}
  let r ← Sloth.getResults (s.getD 0) .list
  match r with
  | .list l => PyS.pure [(x.headD 0 - l.headD 0) * (x.headD 0 - l.headD 0)]
  | _ => PyS.raise .typeError

/-- A study of a simulation of a linear problem, whose first unknown is 2, run twice. -/
def Ex.fitted : List (Op Rat) := (Sloth.Ex.linRun []).map .sim ++
  [.newProblem 1 "p" .none false none Ex.fit, .call 0,
   .newStudy { sim := 0, problem := 0, params := [.str "a", .str "b"], constraints := .nested [[1, 0], [4, 0]] }, .run 0 {},
   .setConstraints 0 (.nested [[-9, 0], [3, 0]]), .run 0 {}]

/-- A library that stays within the bounds: it answers with the lower corner, if there is a box. -/
def Ex.corner : Lib Rat where
  algorithm _ := .ok ()
  evolve _ _ lo hi _ v := if List.Forall₂ (· ≤ ·) lo hi then .ask lo fun fl => .ret ⟨lo, fl, v⟩ else .fail .valueError
  plot _ := .ok ()

example : Spec.Bounded Ex.corner := by
  intro n al lo hi sz v f s c h
  simp only [Ex.corner] at h
  split at h
  · next hb =>
    simp only [Prog.run, PyS.bind] at h
    split at h
    · simp only [Prog.run, PyS.pure, Except.ok.injEq] at h; rw [← h]; exact ⟨List.forall₂_same.2 fun _ _ => le_refl _, hb⟩
    · simp at h
  · simp [Prog.run, PyS.raise] at h

example : (getResults 0 (Ex.world (Ex.fitted.take (Ex.fitted.length - 2)))).toOption = some (some [1, 0], some [1]) ∧
    (getResults 0 (Ex.world Ex.fitted)).toOption = some (some [3, 0], some [1]) ∧
    (Ex.world Ex.fitted).runs = 2 := by decide +kernel

/-- C45 fails: maximization is asked for in every way there is and the bounds of the problem are set, but the smaller value is found, within
the constraints of the study. -/
theorem maximization_returns_minimum :
    (getResults 0 (Ex.world (Ex.prepared (.flat [1, 2]) (.str "pso") ++ [.run 0 {}]))).toOption = some (some [1], some [1]) ∧
    (Ex.lib.evolve 0 ⟨"pso", []⟩ [1] [2] .none 0).answer id = .ok ⟨[1], [1], 0⟩ := ⟨by decide +kernel, rfl⟩

/-- Without constraints the bounds of the problem are not used: the run raises. -/
theorem problem_bounds_ignored : let w := Ex.world (Ex.prepared .none (.str "pso"))
    (runOptimization Ex.lib 0 {} w).1.toOption = none ∧ ((runOptimization Ex.lib 0 {} w).2.probs.map (·.bounds)) = [.none] ∧
    (w.probs.map (·.bounds)) = [.flat [7, 8]] := by decide +kernel

/-- A run that raises can leave results: asking for the graph without a report frequency raises after the results were stored. -/
theorem failed_run_has_results : let w := Ex.world (Ex.prepared (.flat [1, 2]) (.str "pso"))
    (runOptimization Ex.lib 0 { graph := true } w).1.toOption = none ∧
    (getResults 0 (runOptimization Ex.lib 0 { graph := true } w).2).toOption = some (some [1], some [1]) ∧
    ((runOptimization Ex.lib 0 { graph := true } w).2.opts.map (·.success)) = [false] ∧
    (runOptimization Ex.lib 0 { graph := true, frequency := 1 } w).1.toOption = some () := by decide +kernel

example : (Ex.world (Ex.prepared (.flat [1, 2]) (.str "annealing"))).opts.map (·.mechanism) = [none] := by decide +kernel

/-- A study whose problem was not called, and one with constraints by name. -/
def Ex.rejected : List (Op Rat) := [.sim (.newSim "s"), .sim (.configure 0 [] none none), .newProblem 1 "p" .none false none Ex.objective,
  .newStudy { sim := 0, problem := 0, params := [.quantity "a", .quantity "b"], constraints := .dict ["a"] },
  .newStudy { sim := 0, problem := 0, params := [.quantity "a"], constraints := .flat [1, 2] }]

example : Op.call 0 ∉ Ex.rejected ∧ ((Ex.world Ex.rejected).opts.map fun o => (o.problem, o.constraints, o.params)) =
      [(0, .dict ["a"], [.quantity "a", .quantity "b"]), (0, .flat [1, 2], [.quantity "a"])] ∧ (Ex.world Ex.rejected).probs.length = 1 :=
  ⟨by simp [Ex.rejected], by decide +kernel⟩

end Sloth.Opt
