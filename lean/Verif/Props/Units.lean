import Verif.Lemmas.Unit

/-!
# Properties of units (C01-C07, C56)

`UReach` is the set of units a user can obtain through the public API; the SI ones are obtained from
dictionaries that mention SI names only.  Statements speak about the observable exponent table (`expo u d` is
`u.dimension.get(d, 0)`, `dimVec` its restriction to the seven SI names) and about the operators' results.
-/

namespace Sloth
open UnitObj

/-- Units reachable by constructors and operators.  `d` in `init` is any Python dictionary (distinct keys). -/
inductive UReach : UnitObj → Prop
  | init (n : String) (d : Dict String Rat) (desc : String) : DNodup d → UReach (init n d desc)
  | initU {u} (n desc : String) : UReach u → UReach (initU n u desc)
  | add {u v w} : UReach u → UReach v → u.add v = .ok w → UReach w
  | sub {u v w} : UReach u → UReach v → u.sub v = .ok w → UReach w
  | mul {u v w} : UReach u → UReach v → u.mul (.unit v) = .ok (.unit w) → UReach w
  | div {u v w} : UReach u → UReach v → u.div (.unit v) = .ok (.unit w) → UReach w
  | pow {u w} (a : Arg) : UReach u → u.pow a = .ok w → UReach w

/-- SI units: reachable starting from dictionaries that only mention SI names. -/
inductive UReachSI : UnitObj → Prop
  | init (n : String) (d : Dict String Rat) (desc : String) : DNodup d →
      (∀ k ∈ dkeys d, ∃ b : Spec.Base, k = b.symbol) → UReachSI (init n d desc)
  | initU {u} (n desc : String) : UReachSI u → UReachSI (initU n u desc)
  | add {u v w} : UReachSI u → UReachSI v → u.add v = .ok w → UReachSI w
  | sub {u v w} : UReachSI u → UReachSI v → u.sub v = .ok w → UReachSI w
  | mul {u v w} : UReachSI u → UReachSI v → u.mul (.unit v) = .ok (.unit w) → UReachSI w
  | div {u v w} : UReachSI u → UReachSI v → u.div (.unit v) = .ok (.unit w) → UReachSI w
  | pow {u w} (a : Arg) : UReachSI u → u.pow a = .ok w → UReachSI w

theorem add_ok_eq {u v w : UnitObj} (h : u.add v = .ok w) : w = u := by
  unfold UnitObj.add at h
  cases hc : u.checkCoherence v with
  | error e => simp [hc, bind, Except.bind] at h
  | ok b => cases b <;> simp [hc, bind, Except.bind] at h; exact h.symm

theorem sub_ok_eq {u v w : UnitObj} (h : u.sub v = .ok w) : w = u := add_ok_eq h

theorem pow_ok_cases {u w : UnitObj} {a : Arg} (h : u.pow a = .ok w) :
    (∃ n, a = .num n ∧ w = powN u n) ∨ (∃ v, a = .unit v ∧ v.isDimensionless = true ∧ w = UnitObj.init "" u.dim) := by
  cases a with
  | num n => exact Or.inl ⟨n, rfl, by simpa [UnitObj.pow] using h.symm⟩
  | unit v =>
    right; refine ⟨v, rfl, ?_⟩
    by_cases hv : v.isDimensionless = true
    · simp [UnitObj.pow, hv] at h; exact ⟨hv, h.symm⟩
    · simp [UnitObj.pow, hv] at h
  | other => simp [UnitObj.pow] at h

/-! ## C06 -/

/-- C06: every reachable unit has each dimension name once and all seven SI names. -/
theorem unit_table_wellformed {u : UnitObj} (h : UReach u) :
    (dkeys u.dim).Nodup ∧ ∀ b : Spec.Base, b.symbol ∈ dkeys u.dim := by
  have key : WF u := by
    induction h with
    | init n d desc _ => exact init_wf _ _ _
    | initU n desc _ _ => exact init_wf _ _ _
    | add _ _ h ihu _ => rw [add_ok_eq h]; exact ihu
    | sub _ _ h ihu _ => rw [sub_ok_eq h]; exact ihu
    | mul _ _ h _ _ => simp [UnitObj.mul] at h; rw [← h]; exact init_wf _ _ _
    | div _ _ h _ _ => simp [UnitObj.div] at h; rw [← h]; exact init_wf _ _ _
    | pow a _ h _ =>
      rcases pow_ok_cases h with ⟨n, _, rfl⟩ | ⟨v, _, _, rfl⟩ <;> exact init_wf _ _ _
  exact ⟨key.1, fun b => key.2 _ (by cases b <;> decide)⟩

theorem UReach.wf {u : UnitObj} (h : UReach u) : WF u := by
  refine ⟨(unit_table_wellformed h).1, fun k hk => ?_⟩
  have hb : ∃ b : Spec.Base, b.symbol = k := by
    simp only [baseKeys, List.mem_cons, List.not_mem_nil, or_false] at hk
    rcases hk with rfl | rfl | rfl | rfl | rfl | rfl | rfl
    exacts [⟨.m, rfl⟩, ⟨.kg, rfl⟩, ⟨.s, rfl⟩, ⟨.A, rfl⟩, ⟨.K, rfl⟩, ⟨.mol, rfl⟩, ⟨.cd, rfl⟩]
  obtain ⟨b, rfl⟩ := hb
  exact (unit_table_wellformed h).2 b

theorem UReachSI.isSI {u : UnitObj} (h : UReachSI u) : IsSI u := by
  induction h with
  | init n d desc _ hk =>
    apply init_isSI
    intro k hk'
    obtain ⟨b, rfl⟩ := hk k hk'
    cases b <;> decide
  | initU n desc _ ih => exact initU_isSI ih _ _
  | add _ _ h ihu _ => rw [add_ok_eq h]; exact ihu
  | sub _ _ h ihu _ => rw [sub_ok_eq h]; exact ihu
  | mul _ _ h ihu ihv => simp [UnitObj.mul] at h; rw [← h]; exact mulU_isSI ihu ihv
  | div _ _ h _ ihv => simp [UnitObj.div] at h; rw [← h]; exact divU_isSI ihv
  | pow a _ h ih =>
    rcases pow_ok_cases h with ⟨n, _, rfl⟩ | ⟨v, _, _, rfl⟩
    · exact powN_isSI ih n
    · exact initU_isSI ih "" ""

/-- C06, second half: SI units carry exactly the seven SI names, so comparing two of them never raises. -/
theorem unit_si_check_never_raises {u v : UnitObj} (hu : UReachSI u) (hv : UReachSI v) :
    dkeys u.dim = ["m", "kg", "s", "A", "K", "mol", "cd"] ∧ ∃ b, u.checkCoherence v = .ok b :=
  ⟨hu.isSI, _, check_SI hu.isSI hv.isSI⟩

example : UReachSI Tmpl.J :=
  .initU _ _ (.mul (.init _ _ _ (by decide +kernel) (by simp [dkeys]; exact ⟨.kg, rfl⟩))
    (.pow (.num 2) (.initU _ _ (.div (.init _ _ _ (by decide +kernel) (by simp [dkeys]; exact ⟨.m, rfl⟩))
      (.init _ _ _ (by decide +kernel) (by simp [dkeys]; exact ⟨.s, rfl⟩)) rfl)) rfl) rfl)

example : UReach (UnitObj.init "bits" [("bit", 1)]) ∧ ¬ IsSI (UnitObj.init "bits" [("bit", 1)]) :=
  ⟨.init _ _ _ (by decide +kernel), by unfold IsSI; decide⟩

/-! ## C01-C03 -/

/-- C01: the product of two units is a unit and exponents add, for SI and user-defined dimension names alike. -/
theorem unit_mul_adds_exponents {u v : UnitObj} (hu : UReach u) (hv : UReach v) :
    ∃ w, u.mul (.unit v) = .ok (.unit w) ∧ ∀ d, w.expo d = u.expo d + v.expo d :=
  ⟨_, rfl, fun d => expo_mulU hu.wf hv.wf d⟩

example : (mulU (UnitObj.init "b" [("bit", 2), ("s", 1)]) Tmpl._s).expo "bit" = 2
    ∧ (mulU (UnitObj.init "b" [("bit", 2), ("s", 1)]) Tmpl._s).expo "s" = 0 := by decide +kernel

/-- C02, the full claim fails: a user-defined dimension that only the numerator has is dropped by the quotient. -/
theorem unit_div_drops_custom_dimension :
    ∃ u v w d, UReach u ∧ UReach v ∧ u.div (.unit v) = .ok (.unit w) ∧ w.expo d ≠ u.expo d - v.expo d :=
  ⟨UnitObj.init "bit" [("bit", 1)], Tmpl.s, _, "bit", .init _ _ _ (by decide +kernel), .init _ _ _ (by decide +kernel), rfl, by decide +kernel⟩

/-- C02 (partial): exponents subtract for every dimension name the denominator's table mentions (all SI names
among them), and for every name the numerator does not use.  Missing: names used by the numerator only. -/
theorem unit_div_subtracts_exponents_partial {u v : UnitObj} (_hu : UReach u) (hv : UReach v) :
    ∃ w, u.div (.unit v) = .ok (.unit w) ∧
      (∀ b : Spec.Base, w.dimVec b = u.dimVec b - v.dimVec b) ∧
      (∀ d, d ∈ dkeys v.dim ∨ u.expo d = 0 → w.expo d = u.expo d - v.expo d) := by
  refine ⟨_, rfl, fun b => ?_, fun d hd => ?_⟩
  · show (divU u v).expo b.symbol = _
    rw [expo_divU hv.wf, if_pos ((unit_table_wellformed hv).2 b)]; rfl
  · rw [expo_divU hv.wf]
    by_cases hm : d ∈ dkeys v.dim
    · rw [if_pos hm]
    · rw [if_neg hm]
      have h0 : u.expo d = 0 := hd.resolve_left hm
      have h1 : v.expo d = 0 := by
        unfold UnitObj.expo; rw [(dget_eq_none_iff _ _).mpr hm]; rfl
      rw [h0, h1]; simp

/-- C02 on SI units: the claim holds for every dimension name. -/
theorem unit_div_subtracts_exponents_si {u v : UnitObj} (hu : UReachSI u) (hv : UReachSI v) :
    ∃ w, u.div (.unit v) = .ok (.unit w) ∧ ∀ d, w.expo d = u.expo d - v.expo d := by
  refine ⟨_, rfl, fun d => ?_⟩
  rw [expo_divU hv.isSI.wf]
  by_cases hm : d ∈ dkeys v.dim
  · rw [if_pos hm]
  · rw [if_neg hm]
    have h1 : v.expo d = 0 := by
      unfold UnitObj.expo; rw [(dget_eq_none_iff _ _).mpr hm]; rfl
    have h0 : u.expo d = 0 := by
      rw [hv.isSI, ← hu.isSI] at hm
      unfold UnitObj.expo; rw [(dget_eq_none_iff _ _).mpr hm]; rfl
    rw [h0, h1]; simp

example : (divU Tmpl.m (powN Tmpl.s 2)).expo "s" = -2 ∧ (divU Tmpl.m (powN Tmpl.s 2)).expo "m" = 1
    ∧ (divU Tmpl.m (powN Tmpl.s 2)).expo "kg" = 0 := by decide +kernel

/-- C03: powers scale exponents; a dimensionless unit as exponent changes nothing; other exponents are rejected. -/
theorem unit_pow_scales_exponents {u : UnitObj} (hu : UReach u) :
    (∀ n : ℚ, ∃ w, u.pow (.num n) = .ok w ∧ ∀ d, w.expo d = n * u.expo d) ∧
    (∀ v : UnitObj, UReach v → (∀ d, v.expo d = 0) → ∃ w, u.pow (.unit v) = .ok w ∧ ∀ d, w.expo d = u.expo d) ∧
    (∀ v : UnitObj, UReach v → (∃ d, v.expo d ≠ 0) → u.pow (.unit v) = .error .unexpectedValue) ∧
    u.pow .other = .error .unexpectedValue := by
  refine ⟨fun n => ⟨_, rfl, fun d => expo_powN hu.wf n d⟩, fun v hv h => ?_, fun v hv h => ?_, rfl⟩
  · have := (isDimensionless_iff hv.wf).mpr h
    refine ⟨UnitObj.init "" u.dim, by simp [UnitObj.pow, this], fun d => expo_initU hu.wf "" "" d⟩
  · have : v.isDimensionless ≠ true := by
      rw [Ne, isDimensionless_iff hv.wf]; push Not; exact h
    simp [UnitObj.pow, this]

example : (∀ d, Tmpl.dimless.expo d = 0) ∧ Tmpl.m.expo "m" ≠ 0 ∧ (powN Tmpl.m (1/2)).expo "m" = 1/2 :=
  ⟨(isDimensionless_iff (init_wf _ _ _)).mp (by decide +kernel), by decide +kernel, by decide +kernel⟩

/-- Multiplying or dividing a unit by a number gives an unspecified-by-flag quantity of that dimension holding
`n` (respectively `1/n`); dividing by zero raises; any other operand is rejected. -/
theorem unit_number_operand {u : UnitObj} (hu : UReach u) (n : ℚ) :
    (∃ q, u.mul (.num n) = .ok (.qty q) ∧ q.value = n ∧ ∀ d, q.units.expo d = u.expo d) ∧
    (n ≠ 0 → ∃ q, u.div (.num n) = .ok (.qty q) ∧ q.value * n = 1 ∧ ∀ d, q.units.expo d = u.expo d) ∧
    u.div (.num 0) = .error .zeroDivision ∧
    u.mul .other = .error .unexpectedValue ∧ u.div .other = .error .unexpectedValue := by
  refine ⟨⟨_, rfl, rfl, fun d => expo_initU hu.wf "" "" d⟩, fun hn => ?_, by simp [UnitObj.div], rfl, rfl⟩
  refine ⟨_, by simp only [UnitObj.div, if_neg hn]; rfl, ?_, fun d => expo_initU hu.wf "" "" d⟩
  show 1 / n * n = 1
  exact Rat.div_mul_cancel hn

/-! ## C04 -/

/-- Unit expressions as a user writes them. -/
inductive UExpr where
  | leaf (u : UnitObj)
  | mul (a b : UExpr)
  | div (a b : UExpr)
  | pow (a : UExpr) (n : ℚ)

/-- Evaluation by the code's operators. -/
def UExpr.eval : UExpr → Except Err UnitObj
  | .leaf u => .ok u
  | .mul a b => do
    let u ← a.eval
    let v ← b.eval
    match ← u.mul (.unit v) with
    | .unit w => .ok w
    | .qty _ => .error .typeError
  | .div a b => do
    let u ← a.eval
    let v ← b.eval
    match ← u.div (.unit v) with
    | .unit w => .ok w
    | .qty _ => .error .typeError
  | .pow a n => do
    let u ← a.eval
    u.pow (.num n)

/-- The leaves of a unit expression. -/
def UExpr.leaves : UExpr → List UnitObj
  | .leaf u => [u]
  | .mul a b | .div a b => a.leaves ++ b.leaves
  | .pow a _ => a.leaves

/-- Specification: the dimension vector of a unit expression, given the vectors of its leaves. -/
def UExpr.vec : UExpr → Spec.Dim
  | .leaf u => u.dimVec
  | .mul a b => Spec.Dim.mul a.vec b.vec
  | .div a b => Spec.Dim.div a.vec b.vec
  | .pow a n => Spec.Dim.pow a.vec n

/-- C04: an expression over SI units evaluates without error to an SI unit with the specified vector. -/
theorem unit_expr_denotes_vector (e : UExpr) (h : ∀ u ∈ e.leaves, UReachSI u) :
    ∃ w, e.eval = .ok w ∧ UReachSI w ∧ w.dimVec = e.vec := by
  induction e with
  | leaf u => exact ⟨u, rfl, h u (by simp [UExpr.leaves]), rfl⟩
  | mul a b iha ihb =>
    obtain ⟨u, hu, hru, hvu⟩ := iha (fun x hx => h x (by simp [UExpr.leaves, hx]))
    obtain ⟨v, hv, hrv, hvv⟩ := ihb (fun x hx => h x (by simp [UExpr.leaves, hx]))
    refine ⟨mulU u v, by simp [UExpr.eval, hu, hv, UnitObj.mul, bind, Except.bind], .mul hru hrv rfl, ?_⟩
    funext d
    simp only [UExpr.vec, Spec.Dim.mul, ← hvu, ← hvv]
    exact expo_mulU hru.isSI.wf hrv.isSI.wf _
  | div a b iha ihb =>
    obtain ⟨u, hu, hru, hvu⟩ := iha (fun x hx => h x (by simp [UExpr.leaves, hx]))
    obtain ⟨v, hv, hrv, hvv⟩ := ihb (fun x hx => h x (by simp [UExpr.leaves, hx]))
    refine ⟨divU u v, by simp [UExpr.eval, hu, hv, UnitObj.div, bind, Except.bind], .div hru hrv rfl, ?_⟩
    funext d
    simp only [UExpr.vec, Spec.Dim.div, ← hvu, ← hvv]
    obtain ⟨w, hw, hd⟩ := unit_div_subtracts_exponents_si hru hrv
    simp [UnitObj.div] at hw
    rw [hw]; exact hd _
  | pow a n iha =>
    obtain ⟨u, hu, hru, hvu⟩ := iha (fun x hx => h x (by simpa [UExpr.leaves] using hx))
    refine ⟨powN u n, by simp [UExpr.eval, hu, UnitObj.pow, bind, Except.bind], .pow (.num n) hru rfl, ?_⟩
    funext d
    simp only [UExpr.vec, Spec.Dim.pow, ← hvu]
    exact expo_powN hru.isSI.wf n _

/-- C04, consequence: two unit expressions with the same dimension vector are interchangeable for the coherence
check and for addition, whatever their shape; with different vectors they are never coherent. -/
theorem unit_expr_coherent_iff (e f : UExpr) (he : ∀ u ∈ e.leaves, UReachSI u) (hf : ∀ u ∈ f.leaves, UReachSI u) :
    ∃ u v, e.eval = .ok u ∧ f.eval = .ok v ∧
      (u.checkCoherence v = .ok true ↔ e.vec = f.vec) ∧ (u.checkCoherence v = .ok false ↔ e.vec ≠ f.vec) := by
  obtain ⟨u, hu, hru, hvu⟩ := unit_expr_denotes_vector e he
  obtain ⟨v, hv, hrv, hvv⟩ := unit_expr_denotes_vector f hf
  refine ⟨u, v, hu, hv, ?_⟩
  rw [check_SI hru.isSI hrv.isSI, hvu, hvv]
  constructor <;> simp

/-- The abelian-group laws, as instances of `unit_expr_coherent_iff`: any SI units `u v w`. -/
theorem unit_group_laws (u v w : UnitObj) (hu : UReachSI u) (hv : UReachSI v) (hw : UReachSI w) (p q : ℚ) :
    let coh := fun e f : UExpr => ∃ a b, e.eval = .ok a ∧ f.eval = .ok b ∧ a.checkCoherence b = .ok true
    let U := UExpr.leaf u; let V := UExpr.leaf v; let W := UExpr.leaf w
    coh (.mul U V) (.mul V U) ∧ coh (.mul (.mul U V) W) (.mul U (.mul V W)) ∧
    coh (.div (.mul U V) V) U ∧ coh (.div U V) (.mul U (.pow V (-1))) ∧
    coh (.pow (.mul U V) p) (.mul (.pow U p) (.pow V p)) ∧ coh (.mul (.pow U p) (.pow U q)) (.pow U (p + q)) ∧
    coh (.pow (.pow U p) q) (.pow U (p * q)) := by
  intro coh U V W
  have key : ∀ e f : UExpr, (∀ x ∈ e.leaves, UReachSI x) → (∀ x ∈ f.leaves, UReachSI x) → e.vec = f.vec → coh e f := by
    intro e f he hf hv
    obtain ⟨a, b, ha, hb, hab, _⟩ := unit_expr_coherent_iff e f he hf
    exact ⟨a, b, ha, hb, hab.mpr hv⟩
  refine ⟨key _ _ ?_ ?_ ?_, key _ _ ?_ ?_ ?_, key _ _ ?_ ?_ ?_, key _ _ ?_ ?_ ?_, key _ _ ?_ ?_ ?_, key _ _ ?_ ?_ ?_,
    key _ _ ?_ ?_ ?_⟩
  all_goals first
    | (intro x hx; simp [UExpr.leaves, U, V, W] at hx; rcases hx with h | h | h <;> (subst h; assumption))
    | (intro x hx; simp [UExpr.leaves, U, V, W] at hx; rcases hx with h | h <;> (subst h; assumption))
    | (intro x hx; simp [UExpr.leaves, U, V, W] at hx; subst hx; assumption)
    | (funext d; simp only [UExpr.vec, Spec.Dim.mul, Spec.Dim.div, Spec.Dim.pow, U, V, W]; ring)

example : ∃ u v, (UExpr.div (.mul (.leaf Tmpl.kg) (.leaf Tmpl.m)) (.pow (.leaf Tmpl.s) 2)).eval = .ok u ∧
    (UExpr.leaf Tmpl.Force).eval = .ok v ∧ u.checkCoherence v = .ok true := ⟨_, _, rfl, rfl, by decide +kernel⟩

/-! ## C05 -/

/-- C05: for SI units, `u + v` and `u - v` return a unit of the common dimension when the dimension vectors agree
and raise `DimensionalCoherenceError` when they do not. -/
theorem unit_add_sub_gate {u v : UnitObj} (hu : UReachSI u) (hv : UReachSI v) :
    (u.dimVec = v.dimVec →
      ∃ w w', u.add v = .ok w ∧ u.sub v = .ok w' ∧ w.dimVec = u.dimVec ∧ w'.dimVec = u.dimVec) ∧
    (u.dimVec ≠ v.dimVec →
      u.add v = .error .dimensionalCoherence ∧ u.sub v = .error .dimensionalCoherence) := by
  have hc := check_SI hu.isSI hv.isSI
  constructor
  · intro h
    exact ⟨u, u, by simp [UnitObj.add, hc, h, bind, Except.bind], by simp [UnitObj.sub, hc, h, bind, Except.bind], rfl, rfl⟩
  · intro h
    exact ⟨by simp [UnitObj.add, hc, h, bind, Except.bind], by simp [UnitObj.sub, hc, h, bind, Except.bind]⟩

/-- C05: coherence of SI units is an equivalence relation. -/
theorem unit_coherence_equivalence :
    (∀ u, UReachSI u → u.checkCoherence u = .ok true) ∧
    (∀ u v, UReachSI u → UReachSI v → u.checkCoherence v = v.checkCoherence u) ∧
    (∀ u v w, UReachSI u → UReachSI v → UReachSI w →
      u.checkCoherence v = .ok true → v.checkCoherence w = .ok true → u.checkCoherence w = .ok true) := by
  refine ⟨fun u hu => ?_, fun u v hu hv => ?_, fun u v w hu hv hw h1 h2 => ?_⟩
  · rw [check_SI hu.isSI hu.isSI]; simp
  · rw [check_SI hu.isSI hv.isSI, check_SI hv.isSI hu.isSI]; simp [eq_comm]
  · rw [check_SI hu.isSI hv.isSI] at h1
    rw [check_SI hv.isSI hw.isSI] at h2
    rw [check_SI hu.isSI hw.isSI]
    simp at h1 h2 ⊢; rw [h1, h2]

/-- Outside SI the check is not symmetric: a unit with a user-defined dimension is accepted on the right of a
pure number, although its dimension differs, and `KeyError` is raised the other way round. -/
theorem unit_coherence_custom_asymmetric :
    ∃ u v, UReach u ∧ UReach v ∧ u.expo "bit" ≠ v.expo "bit" ∧
      u.checkCoherence v = .ok true ∧ v.checkCoherence u = .error .keyError :=
  ⟨Tmpl.dimless, UnitObj.init "bit" [("bit", 1)], .init _ _ _ (by decide +kernel), .init _ _ _ (by decide +kernel), by decide +kernel, by decide +kernel, by decide +kernel⟩

example : Tmpl.Pa.add Tmpl.atm = .ok Tmpl.Pa ∧ Tmpl.Pa.add Tmpl.J = .error .dimensionalCoherence := by decide +kernel

/-! ## C07 -/

/-- C07: the dimensionless test is exact. -/
theorem unit_dimensionless_iff {u : UnitObj} (hu : UReach u) :
    u.isDimensionless = true ↔ ∀ d, u.expo d = 0 := isDimensionless_iff hu.wf

theorem strParts_eq {u : UnitObj} (hu : UReach u) :
    u.strParts = .ok ((([.m, .kg, .s, .A, .K, .mol, .cd] : List Spec.Base).filter fun b => u.dimVec b ≠ 0).map
      fun b => (b.symbol, u.dimVec b)) := by
  have hwf := unit_table_wellformed hu
  have hg : ∀ b : Spec.Base, dgetE u.dim b.symbol = .ok (u.dimVec b) := by
    intro b
    obtain ⟨x, hx⟩ := exists_dget_of_mem (hwf.2 b)
    simp [dgetE, hx, UnitObj.dimVec, UnitObj.expo]
  unfold UnitObj.strParts
  have h1 := hg .m; have h2 := hg .kg; have h3 := hg .s; have h4 := hg .A
  have h5 := hg .K; have h6 := hg .mol; have h7 := hg .cd
  simp only [Spec.Base.symbol] at h1 h2 h3 h4 h5 h6 h7
  have hm : ([.m, .kg, .s, .A, .K, .mol, .cd] : List Spec.Base).map (fun b => (b.symbol, u.dimVec b)) =
    [("m", u.dimVec .m), ("kg", u.dimVec .kg), ("s", u.dimVec .s), ("A", u.dimVec .A), ("K", u.dimVec .K),
     ("mol", u.dimVec .mol), ("cd", u.dimVec .cd)] := rfl
  have := List.filter_map (f := fun b => (b.symbol, u.dimVec b)) (p := fun p : String × Rat => decide (p.2 ≠ 0))
    (l := ([.m, .kg, .s, .A, .K, .mol, .cd] : List Spec.Base))
  rw [hm] at this
  simp only [baseKeys, List.mapM_cons, List.mapM_nil, h1, h2, h3, h4, h5, h6, h7, bind, Except.bind, pure, Except.pure]
  rw [this]; rfl

/-- C07: `str` never raises and prints `dim^exponent` for exactly the SI dimensions with a non-zero exponent, in SI order. -/
theorem unit_str_lists_nonzero {u : UnitObj} (hu : UReach u) (fmt : ℚ → String) :
    u.str fmt = .ok (pyJoin " "
      ((([.m, .kg, .s, .A, .K, .mol, .cd] : List Spec.Base).filter fun b => u.dimVec b ≠ 0).map
        fun b => b.symbol ++ "^" ++ fmt (u.dimVec b))) := by
  simp only [UnitObj.str, strParts_eq hu, bind, Except.bind, List.map_map]
  rfl

theorem UReachSI.reach {u : UnitObj} (h : UReachSI u) : UReach u := by
  induction h with
  | init n d desc hd _ => exact .init n d desc hd
  | initU n desc _ ih => exact .initU n desc ih
  | add _ _ h ihu ihv => exact .add ihu ihv h
  | sub _ _ h ihu ihv => exact .sub ihu ihv h
  | mul _ _ h ihu ihv => exact .mul ihu ihv h
  | div _ _ h ihu ihv => exact .div ihu ihv h
  | pow a _ h ih => exact .pow a ih h

theorem expo_zero_of_si {u : UnitObj} (hu : UReachSI u) (h : ∀ b, u.dimVec b = 0) (d : String) : u.expo d = 0 := by
  by_cases hd : d ∈ dkeys u.dim
  · rw [hu.isSI] at hd
    simp only [baseKeys, List.mem_cons, List.not_mem_nil, or_false] at hd
    rcases hd with rfl | rfl | rfl | rfl | rfl | rfl | rfl
    exacts [h .m, h .kg, h .s, h .A, h .K, h .mol, h .cd]
  · unfold UnitObj.expo; rw [(dget_eq_none_iff _ _).mpr hd]; rfl

theorem ne_empty_of_pow (a b : String) : a ++ "^" ++ b ≠ "" := by
  intro h
  have := congrArg String.length h
  simp [String.length_append] at this

theorem pyJoin_eq_empty {l : List String} (h : ∀ x ∈ l, x ≠ "") : pyJoin " " l = "" ↔ l = [] := by
  cases l with
  | nil => simp [pyJoin]
  | cons a t =>
    have ha : a ≠ "" := h a (by simp)
    cases t <;> simp [pyJoin, ha]

/-- C07: an SI unit prints as the empty string iff it is dimensionless. -/
theorem unit_str_empty_iff_dimensionless {u : UnitObj} (hu : UReachSI u) (fmt : ℚ → String) :
    u.str fmt = .ok "" ↔ u.isDimensionless = true := by
  rw [unit_str_lists_nonzero hu.reach fmt, unit_dimensionless_iff hu.reach, Except.ok.injEq, pyJoin_eq_empty]
  · rw [List.map_eq_nil_iff, List.filter_eq_nil_iff]
    constructor
    · intro h d
      apply expo_zero_of_si hu
      intro b
      have := h b (by cases b <;> simp)
      simpa using this
    · intro h b _
      have := h b.symbol
      change u.dimVec b = 0 at this
      simp [this]
  · intro x hx
    obtain ⟨b, _, rfl⟩ := List.mem_map.mp hx
    exact ne_empty_of_pow _ _

example : (UnitObj.str (fun q => toString q.num) Tmpl.Force).toOption = some "m^1 kg^1 s^-2" := by decide +kernel

/-! ## C56 -/

/-- C56: the predefined units have the dimension of the physical quantity they name, for every SI dimension,
and no other dimension. -/
theorem template_units_dimension :
    (∀ u ∈ [Tmpl.dimless, Tmpl.m, Tmpl.kg, Tmpl.s, Tmpl.A, Tmpl.K, Tmpl.mol, Tmpl.cd, Tmpl._s, Tmpl._m2, Tmpl._m3,
      Tmpl.m_s, Tmpl.m_s2, Tmpl.kg_s, Tmpl.mol_s, Tmpl.Force, Tmpl.Pa, Tmpl.atm, Tmpl.J, Tmpl.UniversalIdealGasConstant],
      dkeys u.dim = ["m", "kg", "s", "A", "K", "mol", "cd"]) ∧
    Tmpl.dimless.dimVec = Spec.Dim.one ∧
    Tmpl.m.dimVec = .base .m ∧ Tmpl.kg.dimVec = .base .kg ∧ Tmpl.s.dimVec = .base .s ∧ Tmpl.A.dimVec = .base .A ∧
    Tmpl.K.dimVec = .base .K ∧ Tmpl.mol.dimVec = .base .mol ∧ Tmpl.cd.dimVec = .base .cd ∧
    Tmpl._s.dimVec = Spec.Dim.div .one (.base .s) ∧
    Tmpl._m2.dimVec = Spec.Dim.div .one (Spec.Dim.pow (.base .m) 2) ∧
    Tmpl._m3.dimVec = Spec.Dim.div .one (Spec.Dim.pow (.base .m) 3) ∧
    Tmpl.m_s.dimVec = Spec.Dim.div (.base .m) (.base .s) ∧
    Tmpl.m_s2.dimVec = Spec.Dim.div (.base .m) (Spec.Dim.pow (.base .s) 2) ∧
    Tmpl.kg_s.dimVec = Spec.Dim.div (.base .kg) (.base .s) ∧
    Tmpl.mol_s.dimVec = Spec.Dim.div (.base .mol) (.base .s) ∧
    Tmpl.Force.dimVec = Spec.Dim.force ∧ Tmpl.Pa.dimVec = Spec.Dim.pressure ∧ Tmpl.atm.dimVec = Spec.Dim.pressure ∧
    Tmpl.J.dimVec = Spec.Dim.energy ∧
    Tmpl.UniversalIdealGasConstant.dimVec =
      Spec.Dim.div (Spec.Dim.mul .pressure .volume) (Spec.Dim.mul (.base .mol) (.base .K)) := by
  decide +kernel

end Sloth
