import Verif.Model.Errors
import Verif.Props.Expressions
import Verif.Props.Quantities
import Std.Data.String.ToNat

/-!
# Messages of errors (C84)
-/

namespace Sloth
open UnitObj

/-! ## The functions with error objects are the functions of the model -/

/-- Keep the class of what is raised only. -/
def forget {α : Type} : Except Raised α → Except Err α
  | .ok a => .ok a
  | .error x => .error x.kind

theorem forget_passOn {α : Type} (x : Except Err α) : forget (passOn x) = x := by cases x <;> rfl

theorem forget_bind {α β : Type} (x : Except Raised α) (f : α → Except Raised β) : forget (x >>= f) = forget x >>= fun a => forget (f a) := by cases x <;> rfl

theorem sumR_kind (u v : UnitObj) : forget (u.sumR v) = u.add v ∧ forget (u.sumR v) = u.sub v := by
  unfold UnitObj.sumR UnitObj.add UnitObj.sub
  cases h : u.checkCoherence v with
  | error x => exact ⟨rfl, rfl⟩
  | ok b => cases b <;> exact ⟨rfl, rfl⟩

theorem setValueR_kind (q : Quantity) (v : SVArg) (u : Option UnitObj) : forget (q.setValueR v u) = q.setValue v u := by
  cases v with
  | qty p =>
    simp only [Quantity.setValueR, Quantity.setValue]
    split
    · cases u with
      | some u => rfl
      | none =>
        cases h : p.units.checkCoherence q.units with
        | error x => rfl
        | ok b => cases b <;> rfl
    · rfl
  | float x => rfl
  | int x =>
    cases u with
    | none => rfl
    | some u =>
      simp only [Quantity.setValueR, Quantity.setValue]
      cases h : u.checkCoherence q.units with
      | error x => rfl
      | ok b => cases b <;> rfl
  | other => rfl

theorem opR_kind (a : ENode) (op : BOp) (o : Opnd) : forget (a.opR op o) = a.op op o := by
  cases o with
  | other => cases op <;> rfl
  | num q => exact forget_passOn _
  | node b =>
    cases op with
    | add =>
      simp only [ENode.opR, forget_bind, forget_passOn, (sumR_kind _ _).1, ENode.op, ENode.add]
      cases a.unit.add b.unit <;> rfl
    | sub =>
      simp only [ENode.opR, forget_bind, forget_passOn, (sumR_kind _ _).2, ENode.op, ENode.sub]
      cases a.unit.sub b.unit <;> rfl
    | mul => exact forget_passOn (a.op .mul (.node b))
    | div => exact forget_passOn (a.op .div (.node b))
    | pow =>
      simp only [ENode.opR]
      split
      · exact forget_passOn _
      · rename_i h
        simp only [ENode.op, ENode.pow, h]
        rfl

theorem applyFnR_kind (f : Fn) (o : Opnd) : forget (applyFnR f o) = applyFn f o := by
  cases o with
  | node n =>
    simp only [applyFnR]
    split
    · exact forget_passOn _
    · rename_i h
      simp [applyFn, wrapper, h, forget, Raised.kind]
  | num q => rfl
  | other => rfl

theorem diffR_kind (r : Ref) (x : Quantity) (ind : Option (Ref × Quantity)) : forget (x.diffR r ind) = x.diff r ind := by
  unfold Quantity.diffR Quantity.diff
  split
  · exact forget_passOn _
  · rfl

/-- The evaluation with error objects is the evaluation of the model. -/
theorem buildR_kind (e : PyExpr) : forget e.buildR = e.build := by
  induction e with
  | q r x => rfl
  | bin op a b iha ihb => simp only [PyExpr.buildR, PyExpr.build, forget_bind, iha, ihb, opR_kind]
  | binN op a n iha => simp only [PyExpr.buildR, PyExpr.build, forget_bind, iha, opR_kind]
  | nbin op n a iha => simp only [PyExpr.buildR, PyExpr.build, forget_bind, iha, forget_passOn]
  | fn f a iha => simp only [PyExpr.buildR, PyExpr.build, forget_bind, iha, applyFnR_kind]
  | mmN isMax a n iha => simp only [PyExpr.buildR, PyExpr.build, forget_bind, iha, forget_passOn]
  | diff r x ind => exact diffR_kind r x ind

theorem buildR_ok {e : PyExpr} {n : ENode} (h : e.buildR = .ok n) : e.build = .ok n := by rw [← buildR_kind, h]; rfl

/-! ## Texts of dimensions -/

/-- Two lists split at the first place of an element. -/
theorem split_inj {α : Type} {c : α} {x y z w : List α} (hx : c ∉ x) (hy : c ∉ y) (h : x ++ c :: z = y ++ c :: w) : x = y ∧ z = w := by
  induction x generalizing y with
  | nil =>
    cases y with
    | nil => simpa using h
    | cons a t => simp only [List.nil_append, List.cons_append, List.cons.injEq] at h; exact absurd (by simp [h.1]) hy
  | cons a t ih =>
    cases y with
    | nil => simp only [List.nil_append, List.cons_append, List.cons.injEq] at h; exact absurd (by simp [h.1]) hx
    | cons b s =>
      simp only [List.cons_append, List.cons.injEq] at h
      simp only [List.mem_cons, not_or] at hx hy
      obtain ⟨h1, h2⟩ := ih hx.2 hy.2 h.2
      exact ⟨by rw [h.1, h1], h2⟩

theorem natText_digit (n : Nat) : ∀ c ∈ (toString n).toList, c.isDigit = true := by
  intro c hc
  have h : (toString n).toList = Nat.toDigits 10 n := by simp [toString, Nat.repr]
  rw [h] at hc
  exact Nat.isDigit_of_mem_toDigits (by decide) (by decide) hc

theorem intText_chars (n : Int) : ∀ c ∈ (toString n).toList, c.isDigit = true ∨ c = '-' := by
  intro c hc
  cases n with
  | ofNat n => exact .inl (natText_digit n c hc)
  | negSucc n =>
    have h : (toString (Int.negSucc n)) = "-" ++ toString (n + 1) := rfl
    rw [h, String.toList_append, List.mem_append] at hc
    rcases hc with hc | hc
    · exact .inr (by simpa using hc)
    · exact .inl (natText_digit _ c hc)

theorem intText_inj {a b : Int} (h : toString a = toString b) : a = b := by
  have neg : ∀ n : Nat, toString (Int.negSucc n) = "-" ++ toString (n + 1) := fun n => rfl
  have pos : ∀ n : Nat, toString (Int.ofNat n) = toString n := fun n => rfl
  have cross : ∀ m n : Nat, toString (Int.ofNat m) = toString (Int.negSucc n) → False := by
    intro m n h
    rw [pos, neg] at h
    have := natText_digit m '-' (by rw [h]; simp)
    simp [Char.isDigit] at this
  cases a with
  | ofNat m =>
    cases b with
    | ofNat n => rw [pos, pos] at h; exact congrArg _ (Nat.repr_injective h)
    | negSucc n => exact (cross m n h).elim
  | negSucc m =>
    cases b with
    | ofNat n => exact (cross n m h.symm).elim
    | negSucc n =>
      rw [neg, neg] at h
      have h1 := congrArg String.toList h
      simp only [String.toList_append, List.append_cancel_left_eq] at h1
      have := Nat.repr_injective (String.toList_inj.1 h1)
      simp at this
      rw [this]

theorem numStr_chars (q : Rat) : ∀ c ∈ (numStr q).toList, c.isDigit = true ∨ c = '-' ∨ c = '/' := by
  intro c hc
  unfold numStr at hc
  split at hc
  · rcases intText_chars _ c hc with h | h <;> simp [h]
  · simp only [String.toList_append, List.mem_append] at hc
    rcases hc with (hc | hc) | hc
    · rcases intText_chars _ c hc with h | h <;> simp [h]
    · exact .inr (.inr (by simpa using hc))
    · exact .inl (natText_digit _ c hc)

theorem numStr_inj {a b : Rat} (h : numStr a = numStr b) : a = b := by
  have no : ∀ n : Int, '/' ∉ (toString n).toList := fun n hn => by
    rcases intText_chars n _ hn with h | h <;> simp [Char.isDigit] at h
  unfold numStr at h
  split at h <;> split at h
  · rename_i h1 h2
    exact Rat.ext (intText_inj h) (h1.trans h2.symm)
  · exact (no a.num (by rw [h]; simp)).elim
  · exact (no b.num (by rw [← h]; simp)).elim
  · have h1 := congrArg String.toList h
    simp only [String.toList_append, List.append_assoc] at h1
    have h2 := split_inj (c := '/') (z := (toString a.den).toList) (w := (toString b.den).toList) (no a.num) (no b.num) (by simpa using h1)
    exact Rat.ext (intText_inj (String.toList_inj.1 h2.1)) (Nat.repr_injective (String.toList_inj.1 h2.2))

/-- The texts of two dictionaries with the same keys differ when the dictionaries do. -/
theorem dimText_inj {d e : Dict String Rat} (hk : dkeys d = dkeys e) (h : dimText d = dimText e) : d = e := by
  have no : ∀ (c : Char) (q : Rat), c = ',' ∨ c = '}' → c ∉ (numStr q).toList := fun c q hc hm => by
    rcases hc with rfl | rfl <;> rcases numStr_chars q _ hm with h | h | h <;> simp [Char.isDigit] at h
  have h1 := congrArg String.toList h
  simp only [dimText, String.toList_append, List.append_assoc, List.append_cancel_left_eq] at h1
  clear h
  induction d generalizing e with
  | nil => cases e with
    | nil => rfl
    | cons p t => simp [dkeys] at hk
  | cons p t ih =>
    cases e with
    | nil => simp [dkeys] at hk
    | cons p' t' =>
      obtain ⟨k, v⟩ := p
      obtain ⟨k', v'⟩ := p'
      simp only [dkeys, List.map_cons, List.cons.injEq] at hk
      obtain ⟨rfl, hk⟩ := hk
      cases t with
      | nil =>
        cases t' with
        | cons _ _ => simp at hk
        | nil =>
          simp only [List.map_cons, List.map_nil, pyJoin, String.toList_append, List.append_assoc, List.append_cancel_left_eq] at h1
          have h2 := split_inj (c := '}') (z := []) (w := []) (no _ v (.inr rfl)) (no _ v' (.inr rfl)) (by simpa using h1)
          rw [numStr_inj (String.toList_inj.1 h2.1)]
      | cons q t =>
        cases t' with
        | nil => simp at hk
        | cons q' t' =>
          simp only [List.map_cons, pyJoin, String.toList_append, List.append_assoc, List.append_cancel_left_eq] at h1
          have h2 := split_inj (c := ',') (no _ v (.inl rfl)) (no _ v' (.inl rfl)) (by simpa using h1)
          rw [numStr_inj (String.toList_inj.1 h2.1)]
          refine congrArg _ (ih (e := q' :: t') hk ?_)
          simpa [pyJoin] using h2.2
theorem dict_ext {d e : Dict String Rat} (hk : dkeys d = dkeys e) (hn : (dkeys d).Nodup) (h : ∀ k ∈ dkeys d, dget d k = dget e k) : d = e := by
  induction d generalizing e with
  | nil => cases e with
    | nil => rfl
    | cons p t => simp [dkeys] at hk
  | cons p t ih =>
    cases e with
    | nil => simp [dkeys] at hk
    | cons p' t' =>
      obtain ⟨k, v⟩ := p
      obtain ⟨k', v'⟩ := p'
      simp only [dkeys, List.map_cons, List.cons.injEq] at hk
      obtain ⟨rfl, hk⟩ := hk
      simp only [dkeys, List.map_cons, List.nodup_cons] at hn
      have h0 := h k (by simp [dkeys])
      simp only [dget_cons, if_true, Option.some.injEq] at h0
      subst h0
      refine congrArg _ (ih hk hn.2 fun x hx => ?_)
      have hne : k ≠ x := fun he => hn.1 (he ▸ hx)
      have := h x (by simp only [dkeys, List.map_cons, List.mem_cons]; exact .inr hx)
      rwa [dget_cons, dget_cons, if_neg hne, if_neg hne] at this

/-- The texts of two SI units are the same exactly when their dimensions are. -/
theorem dimText_si {u v : UnitObj} (hu : IsSI u) (hv : IsSI v) : dimText u.dim = dimText v.dim ↔ u.dimVec = v.dimVec := by
  constructor
  · intro h
    have := dimText_inj (hu.trans hv.symm) h
    unfold UnitObj.dimVec UnitObj.expo
    rw [this]
  · intro h
    refine congrArg _ (dict_ext (hu.trans hv.symm) hu.wf.1 fun k hk => ?_)
    obtain ⟨b, rfl⟩ : ∃ b : Spec.Base, b.symbol = k := by
      rw [hu] at hk
      simp only [baseKeys, List.mem_cons, List.not_mem_nil, or_false] at hk
      rcases hk with rfl | rfl | rfl | rfl | rfl | rfl | rfl
      exacts [⟨.m, rfl⟩, ⟨.kg, rfl⟩, ⟨.s, rfl⟩, ⟨.A, rfl⟩, ⟨.K, rfl⟩, ⟨.mol, rfl⟩, ⟨.cd, rfl⟩]
    have h1 := congrFun h b
    have hk' : b.symbol ∈ dkeys v.dim := by rw [hv, ← hu]; exact hk
    rw [← dget_isSome_iff, Option.isSome_iff_exists] at hk hk'
    obtain ⟨x, hx⟩ := hk
    obtain ⟨y, hy⟩ := hk'
    simp only [UnitObj.dimVec, UnitObj.expo, hx, hy, Option.getD_some] at h1
    rw [hx, hy, h1]

/-! ## C84 -/

/-- The parts of an expression. -/
inductive Spec.Part (p : PyExpr) : PyExpr → Prop
  | refl : Spec.Part p p
  | left {op a b} : Spec.Part p a → Spec.Part p (.bin op a b)
  | right {op a b} : Spec.Part p b → Spec.Part p (.bin op a b)
  | binN {op a n} : Spec.Part p a → Spec.Part p (.binN op a n)
  | nbin {op a n} : Spec.Part p a → Spec.Part p (.nbin op n a)
  | fn {f a} : Spec.Part p a → Spec.Part p (.fn f a)
  | mmN {m a n} : Spec.Part p a → Spec.Part p (.mmN m a n)

/-- What a refused expression `e` has to say: for a sum or difference inside it, which two dimensions do not agree; for a function of it, which dimension the argument has. -/
inductive Spec.Explains (e : PyExpr) : Raised → Prop
  /-- a sum or difference of operands of different dimensions, both shown, with texts that differ -/
  | sum {x op a b m n} : Spec.Part (.bin op a b) e → op = .add ∨ op = .sub → a.build = .ok m → b.build = .ok n → m.unit.dimVec ≠ n.unit.dimVec →
      dimText m.unit.dim ≠ dimText n.unit.dim → x.print = .ok ("Dimensions are incoherent \n(" ++ dimText m.unit.dim ++ "\n != \n" ++ dimText n.unit.dim ++ ").") → Spec.Explains e x
  /-- a function of an argument that is no pure number, whose dimension is shown -/
  | fn {x f a m} : Spec.Part (.fn f a) e → a.build = .ok m → m.unit.dimVec ≠ Spec.Dim.one →
      x.print = .ok ("A dimensionless argument was expected \n " ++ dimText m.unit.dim) → Spec.Explains e x

/-- A power in `e` with an exponent that is no pure number. -/
def Spec.OddPower (e : PyExpr) : Prop := ∃ a b n, Spec.Part (.bin .pow a b) e ∧ b.build = .ok n ∧ n.unit.dimVec ≠ Spec.Dim.one

/-- A number to the power of a node, which Python itself refuses. -/
def Spec.NumberPower (e : PyExpr) : Prop := ∃ q a, Spec.Part (.nbin .pow q a) e

theorem Spec.Explains.mono {a e : PyExpr} (h : ∀ p, Spec.Part p a → Spec.Part p e) {x : Raised} (hx : Spec.Explains a x) : Spec.Explains e x := by
  cases hx with
  | sum h1 h2 h3 h4 h5 h6 h7 => exact .sum (h _ h1) h2 h3 h4 h5 h6 h7
  | fn h1 h2 h3 h4 => exact .fn (h _ h1) h2 h3 h4

theorem Spec.OddPower.mono {a e : PyExpr} (h : ∀ p, Spec.Part p a → Spec.Part p e) (hx : Spec.OddPower a) : Spec.OddPower e := by
  obtain ⟨c, d, n, h1, h2⟩ := hx
  exact ⟨c, d, n, h _ h1, h2⟩

/-- What can be said of what a refused expression raises. -/
structure Spec.Told (e : PyExpr) (x : Raised) : Prop where
  coherence : x.kind = .dimensionalCoherence → Spec.Explains e x ∨ (Spec.OddPower e ∧ x.print = .error .attributeError)
  argument : x.kind = .typeError → Spec.Explains e x ∨ Spec.NumberPower e
  prints : (∃ s, x.print = .ok s) ∨ Spec.OddPower e

theorem Spec.Told.mono {a e : PyExpr} (h : ∀ p, Spec.Part p a → Spec.Part p e) {x : Raised} (hx : Spec.Told a x) : Spec.Told e x :=
  ⟨fun hk => (hx.coherence hk).imp (.mono h) (fun ⟨h1, h2⟩ => ⟨h1.mono h, h2⟩), fun hk => (hx.argument hk).imp (.mono h) (fun ⟨q, c, h1⟩ => ⟨q, c, h _ h1⟩), hx.prints.imp id (.mono h)⟩

theorem Spec.Told.py {e : PyExpr} {k : Err} (h : k ≠ .dimensionalCoherence) (h' : k ≠ .typeError) (msg : Option String) : Spec.Told e (.py k msg) :=
  ⟨fun hk => absurd hk h, fun hk => absurd hk h', .inl ⟨_, rfl⟩⟩

theorem passOn_error {α : Type} {y : Except Err α} {x : Raised} (h : passOn y = .error x) : ∃ k, y = .error k ∧ x = .py k := by
  cases y with
  | ok a => cases h
  | error k => cases h; exact ⟨k, rfl, rfl⟩

/-- C84 (partial): when an expression over SI quantities is refused for its dimensions, the message names the two dimensions of a sum or difference inside it
that really do not agree; and every error raised by an expression can be printed.
Missing: powers with an exponent that is no pure number, whose error cannot be printed (`power_error_unprintable`). -/
theorem refused_expression_told_partial (e : PyExpr) (hu : Spec.AllUnits UReachSI e) {x : Raised} (h : e.buildR = .error x) : Spec.Told e x := by
  induction e with
  | q r y => simp [PyExpr.buildR] at h
  | bin op a b iha ihb =>
    simp only [PyExpr.buildR, bind_eq_error] at h
    rcases h with h | ⟨m, hm, h | ⟨k, hk, h⟩⟩
    · exact (iha hu.1 h).mono fun p hp => .left hp
    · exact (ihb hu.2 h).mono fun p hp => .right hp
    · have hm := buildR_ok hm
      have hk := buildR_ok hk
      have um := expr_unit_si a hu.1 hm
      have uk := expr_unit_si b hu.2 hk
      have sum : ∀ op, op = .add ∨ op = .sub → (m.opR op (.node k)) = .error x → Spec.Told (.bin op a b) x := by
        intro op hop h
        have h' : m.unit.sumR k.unit = .error x := by
          have key : ∀ z, m.unit.sumR k.unit = .ok z → False := by
            intro z hz
            have h1 := (sumR_kind m.unit k.unit).1
            have h2 := (sumR_kind m.unit k.unit).2
            rw [hz] at h1 h2
            rcases hop with rfl | rfl
            · simp [ENode.opR, hz, ENode.op, ENode.add, ← h1, forget, passOn] at h
            · simp [ENode.opR, hz, ENode.op, ENode.sub, ← h2, forget, passOn] at h
          cases hs : m.unit.sumR k.unit with
          | ok z => exact (key z hs).elim
          | error y => rcases hop with rfl | rfl <;> simpa [ENode.opR, hs, bind, Except.bind] using h
        unfold UnitObj.sumR at h'
        rw [check_SI um.isSI uk.isSI] at h'
        by_cases hd : m.unit.dimVec = k.unit.dimVec
        · simp [hd, passOn] at h'
        · simp only [hd, decide_false, passOn, ok_bind, Bool.false_eq_true, if_false, Except.error.injEq] at h'
          subst h'
          exact ⟨fun _ => .inl (.sum .refl hop hm hk hd (fun ht => hd ((dimText_si um.isSI uk.isSI).1 ht)) rfl), fun hk => by simp [Raised.kind, ErrObj.kind] at hk, .inl ⟨_, rfl⟩⟩
      cases op with
      | add => exact sum _ (.inl rfl) h
      | sub => exact sum _ (.inr rfl) h
      | mul =>
        obtain ⟨y, hy, rfl⟩ := passOn_error (show passOn (m.op .mul (.node k)) = _ from h)
        rcases op_node_err um uk hy with ⟨_, ⟨h1, _⟩ | ⟨h1, _⟩⟩ | rfl
        · simp at h1
        · simp at h1
        · exact .py (by simp) (by simp) _
      | div =>
        obtain ⟨y, hy, rfl⟩ := passOn_error h
        rcases op_node_err um uk hy with ⟨_, ⟨h1, _⟩ | ⟨h1, _⟩⟩ | rfl
        · simp at h1
        · simp at h1
        · exact .py (by simp) (by simp) _
      | pow =>
        simp only [ENode.opR] at h
        split at h
        · rename_i hd
          obtain ⟨y, hy, rfl⟩ := passOn_error h
          rcases op_node_err um uk hy with ⟨_, ⟨h1, _⟩ | ⟨_, h1⟩⟩ | rfl
          · simp at h1
          · exact absurd ((dimless_iff uk).1 hd) h1
          · exact .py (by simp) (by simp) _
        · rename_i hd
          rw [dimless_iff uk] at hd
          simp only [Except.error.injEq] at h
          subst h
          have : Spec.OddPower (.bin .pow a b) := ⟨a, b, k, .refl, hk, hd⟩
          exact ⟨fun _ => .inr ⟨this, rfl⟩, fun hk => by simp [Raised.kind, ErrObj.kind] at hk, .inr this⟩
  | binN op a n iha =>
    simp only [PyExpr.buildR, bind_eq_error] at h
    rcases h with h | ⟨m, _, h⟩
    · exact (iha hu h).mono fun p hp => .binN hp
    · obtain ⟨y, hy, rfl⟩ := passOn_error (show passOn (m.op op (.num n)) = _ from h)
      rw [op_num_err hy]; exact .py (by simp) (by simp) _
  | nbin op n a iha =>
    simp only [PyExpr.buildR, bind_eq_error] at h
    rcases h with h | ⟨m, _, h⟩
    · exact (iha hu h).mono fun p hp => .nbin hp
    · obtain ⟨y, hy, rfl⟩ := passOn_error h
      rcases rop_err hy with rfl | ⟨rfl, rfl⟩
      · exact .py (by simp) (by simp) _
      · exact ⟨fun hk => by simp [Raised.kind] at hk, fun _ => .inr ⟨n, a, .refl⟩, .inl ⟨_, rfl⟩⟩
  | fn f a iha =>
    simp only [PyExpr.buildR, bind_eq_error] at h
    rcases h with h | ⟨m, hm, h⟩
    · exact (iha hu h).mono fun p hp => .fn hp
    · simp only [applyFnR] at h
      split at h
      · rename_i hd
        simp [applyFn, wrapper, hd, passOn] at h
      · rename_i hd
        have hm := buildR_ok hm
        rw [dimless_iff (expr_unit_si a hu hm)] at hd
        simp only [Except.error.injEq] at h
        subst h
        exact ⟨fun hk => by simp [Raised.kind] at hk, fun _ => .inl (.fn .refl hm hd rfl), .inl ⟨_, rfl⟩⟩
  | mmN isMax a n iha =>
    simp only [PyExpr.buildR, bind_eq_error] at h
    rcases h with h | ⟨m, _, h⟩
    · exact (iha hu h).mono fun p hp => .mmN hp
    · simp [minMax, MArg.isNum, MArg.isNode, MArg.unit?, passOn] at h
  | diff r y ind =>
    simp only [PyExpr.buildR, Quantity.diffR] at h
    split at h
    · obtain ⟨k, hk, rfl⟩ := passOn_error h
      have hv : k = .valueError := by
        cases ind with
        | none => simp [diffNode] at hk
        | some t =>
          simp only [diffNode] at hk
          split at hk <;> simp at hk
          exact hk.symm
      subst hv
      exact .py (by simp) (by simp) _
    · simp only [Except.error.injEq] at h
      subst h
      exact ⟨fun hk => by simp [Raised.kind, ErrObj.kind] at hk, fun hk => by simp [Raised.kind, ErrObj.kind] at hk, .inl ⟨_, rfl⟩⟩

/-- What is raised. -/
def Ex.raised {α : Type} : Except Raised α → Option Raised
  | .ok _ => none
  | .error x => some x

/-- A length plus a time inside a product: the message is about the length and the time. -/
example : Spec.AllUnits UReachSI (PyExpr.bin .mul Ex.X (.bin .add Ex.X Ex.T)) ∧
    Ex.raised (PyExpr.bin .mul Ex.X (.bin .add Ex.X Ex.T)).buildR = some (.obj (.incoherent (some Tmpl.m) (some Tmpl.s))) ∧
    (Raised.print (.obj (.incoherent (some Tmpl.m) (some Tmpl.s)))).toOption =
      some "Dimensions are incoherent \n({'m': 1, 'kg': 0, 's': 0, 'A': 0, 'K': 0, 'mol': 0, 'cd': 0}\n != \n{'m': 0, 'kg': 0, 's': 1, 'A': 0, 'K': 0, 'mol': 0, 'cd': 0})." := by
  exact ⟨⟨Ex.m_si, Ex.m_si, Ex.s_si⟩, by decide +kernel, by decide +kernel⟩

/-- C84 fails for powers: whatever the base and the exponent, if the exponent is no pure number the error raised cannot be printed. -/
theorem power_error_unprintable (a b : PyExpr) {m n : ENode} (ha : a.buildR = .ok m) (hb : b.buildR = .ok n) (hu : Spec.AllUnits UReachSI b)
    (hn : n.unit.dimVec ≠ Spec.Dim.one) : ∃ x, (PyExpr.bin .pow a b).buildR = .error x ∧ x.kind = .dimensionalCoherence ∧ x.print = .error .attributeError := by
  have hd : ¬ n.unit.isDimensionless = true := fun h => hn ((dimless_iff (expr_unit_si b hu (buildR_ok hb))).1 h)
  refine ⟨.obj (.incoherent (some n.unit) none), ?_, rfl, rfl⟩
  simp [PyExpr.buildR, ha, hb, ENode.opR, hd]

example : (PyExpr.buildR Ex.X).toOption.isSome = true ∧ (PyExpr.buildR Ex.T).toOption.map (fun n => n.unit.dimVec .s) = some 1 ∧ Spec.AllUnits UReachSI Ex.T :=
  ⟨by decide +kernel, by decide +kernel, Ex.s_si⟩

/-- C84 for `setValue` with a quantity and without a unit: it is refused exactly when the dimensions differ, and the message shows the dimension of
the quantity that is set, then that of the one given; the two texts differ. -/
theorem setValue_message (q p : Quantity) (hk : p.kind.isInstanceOf q.kind = true) (hq : UReachSI q.units) (hp : UReachSI p.units) :
    (q.units.dimVec = p.units.dimVec → ∃ q', q.setValueR (.qty p) none = .ok q') ∧
    (q.units.dimVec ≠ p.units.dimVec → ∃ x, q.setValueR (.qty p) none = .error x ∧ x.kind = .dimensionalCoherence ∧
      x.print = .ok ("Dimensions are incoherent \n(" ++ dimText q.units.dim ++ "\n != \n" ++ dimText p.units.dim ++ ").") ∧
      dimText q.units.dim ≠ dimText p.units.dim) := by
  refine ⟨fun h => ?_, fun h => ?_⟩
  · simp [Quantity.setValueR, hk, check_SI hp.isSI hq.isSI, h, passOn]
  · refine ⟨.obj (.incoherent (some q.units) (some p.units)), ?_, rfl, rfl, fun ht => h ((dimText_si hq.isSI hp.isSI).1 ht)⟩
    simp [Quantity.setValueR, hk, check_SI hp.isSI hq.isSI, Ne.symm h, passOn]

/-- C84 fails for `setValue` with a quantity and a unit: it is always refused, and when the dimensions agree the message says that a dimension differs from itself. -/
theorem setValue_message_same (q p : Quantity) (u : UnitObj) (hk : p.kind.isInstanceOf q.kind = true) (hq : UReachSI q.units) (hp : UReachSI p.units)
    (h : q.units.dimVec = p.units.dimVec) : ∃ x t, q.setValueR (.qty p) (some u) = .error x ∧ x.kind = .dimensionalCoherence ∧
      dimText q.units.dim = t ∧ dimText p.units.dim = t ∧ x.print = .ok ("Dimensions are incoherent \n(" ++ t ++ "\n != \n" ++ t ++ ").") := by
  have ht := (dimText_si hq.isSI hp.isSI).2 h
  refine ⟨.obj (.incoherent (some q.units) (some p.units)), dimText q.units.dim, ?_, rfl, rfl, ht.symm, ?_⟩
  · simp [Quantity.setValueR, hk]
  · simp only [Raised.print, ErrObj.print, unitText, ok_bind, ht]

/-- Operators and functions refuse what is neither a number nor an expression with one and the same text, operators as `UnexpectedValueError`, functions as `TypeError`;
`setValue` names other classes. -/
theorem other_operand_message (a : ENode) (op : BOp) (f : Fn) (q : Quantity) (u : Option UnitObj) :
    (∃ x, a.opR op .other = .error x ∧ x.kind = .unexpectedValue ∧
      x.print = .ok "Unexpected value error. A (int, float, EquationNode) was expected, but one divergent type was supplied.") ∧
    (∃ x, applyFnR f .other = .error x ∧ x.kind = .typeError ∧
      x.print = .ok "Unexpected value error. A (int, float, EquationNode) was expected, but one divergent type was supplied.") ∧
    (∃ x, q.setValueR .other u = .error x ∧ x.kind = .unexpectedValue ∧
      x.print = .ok "Unexpected value error. A (Quantity, float, int) was expected, but one divergent type was supplied.") :=
  ⟨⟨_, rfl, rfl, by decide +kernel⟩, ⟨_, rfl, rfl, by decide +kernel⟩, ⟨_, rfl, rfl, by decide +kernel⟩⟩

/-- A length set by a length, by a time, and by a length with a unit. -/
example : Ex.y.kind.isInstanceOf Ex.x.kind = true ∧ Ex.t.kind.isInstanceOf Ex.x.kind = true ∧ Ex.x.units.dimVec = Ex.y.units.dimVec ∧ Ex.x.units.dimVec ≠ Ex.t.units.dimVec :=
  ⟨by decide +kernel, by decide +kernel, rfl, fun h => by have := congrFun h .s; revert this; decide +kernel⟩

end Sloth
