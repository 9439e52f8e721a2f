import Verif.Props.Eval
import Verif.Props.Arith
import Verif.Proof.Cmp

/-!
C36–C38: comparison, equality and boolean operators.  Operands are written `'v` (quoted), which
evaluates to any value `v` at all; `C36_operands` and `C37_operands` reduce arbitrary operand
expressions to that form.
-/

namespace Dune.Props

open Spec

section

variable {W : Type} (P : Plat) (H : Host W) (L : Lib) (n : Nat) (env : Env) (w : W)

/-- `a op b` evaluates to `True`, changing nothing. -/
def Holds (op : Str) (a b : Expr) : Prop :=
  evalN P H (stdB P L) (n + 1) (.apply (.symbol op) [.quote a, .quote b]) env w =
    (.ok (.bool true), env, w)

/-- `a op b` evaluates to `False`, changing nothing. -/
def Fails (op : Str) (a b : Expr) : Prop :=
  evalN P H (stdB P L) (n + 1) (.apply (.symbol op) [.quote a, .quote b]) env w =
    (.ok (.bool false), env, w)

/-- The operators are bound to the builtins of the initial environment. -/
structure StdCmp : Prop where
  lt : ∃ nm h, env.get c!"<" = some (.builtin nm .lt h)
  le : ∃ nm h, env.get c!"<=" = some (.builtin nm .le h)
  gt : ∃ nm h, env.get c!">" = some (.builtin nm .gt h)
  ge : ∃ nm h, env.get c!">=" = some (.builtin nm .ge h)
  eq : ∃ nm h, env.get c!"==" = some (.builtin nm .eq h)
  ne : ∃ nm h, env.get c!"!=" = some (.builtin nm .ne h)

variable {P H L n env w}

@[simp] theorem evalN_quote (n : Nat) (e : Expr) (env : Env) (w : W) :
    evalN P H (stdB P L) n (.quote e) env w = (.ok e, env, w) := by cases n <;> rfl

/-- What a comparison operator bound to `f` returns. -/
theorem eval_cmp {op : Str} {id : BId} {f : Expr → Expr → Bool}
    (hid : ∀ args, stdB P L id args = Builtins.cmpB f args)
    (hop : ∃ nm h, env.get op = some (.builtin nm id h)) (a b : Expr) :
    evalN P H (stdB P L) (n + 1) (.apply (.symbol op) [.quote a, .quote b]) env w =
      (.ok (.bool (f a b)), env, w) := by
  obtain ⟨nm, h, hop⟩ := hop
  rw [evalN_symbol hop, evalN_builtin, hid]
  brun [Builtins.cmpB]

theorem eval_cmp' {op : Str} {id : BId} {f : Expr → Expr → Bool}
    (hid : ∀ args, stdB P L id args = Builtins.cmpB f args)
    (hop : ∃ nm h, env.get op = some (.builtin nm id h)) {a b va vb : Expr}
    {env1 env2 : Env} {w1 w2 : W}
    (ha : evalN P H (stdB P L) n a env w = (.ok va, env1, w1))
    (hb : evalN P H (stdB P L) n b env1 w1 = (.ok vb, env2, w2)) :
    evalN P H (stdB P L) (n + 1) (.apply (.symbol op) [a, b]) env w =
      (.ok (.bool (f va vb)), env2, w2) := by
  obtain ⟨nm, h, hop⟩ := hop
  rw [evalN_symbol hop, evalN_builtin, hid]
  brun [Builtins.cmpB, ha, hb]

theorem holds_iff {op : Str} {id : BId} {f : Expr → Expr → Bool}
    (hid : ∀ args, stdB P L id args = Builtins.cmpB f args)
    (hop : ∃ nm h, env.get op = some (.builtin nm id h)) (a b : Expr) :
    Holds P H L n env w op a b ↔ f a b = true := by
  rw [Holds, eval_cmp hid hop]
  simp

theorem fails_iff {op : Str} {id : BId} {f : Expr → Expr → Bool}
    (hid : ∀ args, stdB P L id args = Builtins.cmpB f args)
    (hop : ∃ nm h, env.get op = some (.builtin nm id h)) (a b : Expr) :
    Fails P H L n env w op a b ↔ f a b = false := by
  rw [Fails, eval_cmp hid hop]
  simp

theorem holds_lt (hs : StdCmp env) (a b : Expr) :
    Holds P H L n env w c!"<" a b ↔ Expr.partialCmp a b = some .lt := by
  rw [holds_iff (f := Builtins.ltE) (fun _ => rfl) hs.lt]; simp [Builtins.ltE]

theorem holds_gt (hs : StdCmp env) (a b : Expr) :
    Holds P H L n env w c!">" a b ↔ Expr.partialCmp a b = some .gt := by
  rw [holds_iff (f := Builtins.gtE) (fun _ => rfl) hs.gt]; simp [Builtins.gtE]

theorem holds_le (hs : StdCmp env) (a b : Expr) :
    Holds P H L n env w c!"<=" a b ↔
      Expr.partialCmp a b = some .lt ∨ Expr.partialCmp a b = some .eq := by
  rw [holds_iff (f := Builtins.leE) (fun _ => rfl) hs.le]; simp [Builtins.leE]

theorem holds_ge (hs : StdCmp env) (a b : Expr) :
    Holds P H L n env w c!">=" a b ↔
      Expr.partialCmp a b = some .gt ∨ Expr.partialCmp a b = some .eq := by
  rw [holds_iff (f := Builtins.geE) (fun _ => rfl) hs.ge]; simp [Builtins.geE]

/-! ### C36 -/

/-- C36, a comparison of any two values yields `True` or `False`: it never fails or crashes, and has
no effect. -/
theorem C36_decides (hs : StdCmp env) {op : Str}
    (hop : op ∈ [c!"<", c!"<=", c!">", c!">=", c!"==", c!"!="]) (a b : Expr) :
    Holds P H L n env w op a b ∨ Fails P H L n env w op a b := by
  have key : ∀ (id : BId) (f : Expr → Expr → Bool),
      (∀ args, stdB P L id args = Builtins.cmpB f args) →
      (∃ nm h, env.get op = some (.builtin nm id h)) →
      Holds P H L n env w op a b ∨ Fails P H L n env w op a b := by
    intro id f hid h
    rw [holds_iff hid h, fails_iff hid h]
    cases f a b <;> simp
  simp only [List.mem_cons, List.not_mem_nil, or_false] at hop
  rcases hop with rfl | rfl | rfl | rfl | rfl | rfl
  · exact key _ _ (fun _ => rfl) hs.lt
  · exact key _ _ (fun _ => rfl) hs.le
  · exact key _ _ (fun _ => rfl) hs.gt
  · exact key _ _ (fun _ => rfl) hs.ge
  · exact key _ _ (fun _ => rfl) hs.eq
  · exact key _ _ (fun _ => rfl) hs.ne

/-- C36, only the values of the operands matter: `a op b` is `va op vb`, after evaluating both
operands from left to right. -/
theorem C36_operands {env1 env2 : Env} (hs : StdCmp env) (hs2 : StdCmp env2) {op : Str}
    (hop : op ∈ [c!"<", c!"<=", c!">", c!">=", c!"==", c!"!="]) {a b va vb : Expr}
    {w1 w2 : W}
    (ha : evalN P H (stdB P L) n a env w = (.ok va, env1, w1))
    (hb : evalN P H (stdB P L) n b env1 w1 = (.ok vb, env2, w2)) :
    evalN P H (stdB P L) (n + 1) (.apply (.symbol op) [a, b]) env w =
      evalN P H (stdB P L) (n + 1) (.apply (.symbol op) [.quote va, .quote vb]) env2 w2 := by
  have key : ∀ (id : BId) (f : Expr → Expr → Bool),
      (∀ args, stdB P L id args = Builtins.cmpB f args) →
      (∃ nm h, env.get op = some (.builtin nm id h)) →
      (∃ nm h, env2.get op = some (.builtin nm id h)) →
      evalN P H (stdB P L) (n + 1) (.apply (.symbol op) [a, b]) env w =
        evalN P H (stdB P L) (n + 1) (.apply (.symbol op) [.quote va, .quote vb]) env2 w2 := by
    intro id f hid h h2
    rw [eval_cmp' hid h ha hb, eval_cmp hid h2]
  simp only [List.mem_cons, List.not_mem_nil, or_false] at hop
  rcases hop with rfl | rfl | rfl | rfl | rfl | rfl
  · exact key _ _ (fun _ => rfl) hs.lt hs2.lt
  · exact key _ _ (fun _ => rfl) hs.le hs2.le
  · exact key _ _ (fun _ => rfl) hs.gt hs2.gt
  · exact key _ _ (fun _ => rfl) hs.ge hs2.ge
  · exact key _ _ (fun _ => rfl) hs.eq hs2.eq
  · exact key _ _ (fun _ => rfl) hs.ne hs2.ne

theorem C36_irreflexive (hs : StdCmp env) (a : Expr) : ¬ Holds P H L n env w c!"<" a a := by
  rw [holds_lt hs]
  intro h
  have := Expr.swap_some h
  rw [h] at this
  cases this

theorem C36_asymmetric (hs : StdCmp env) {a b : Expr} (h : Holds P H L n env w c!"<" a b) :
    ¬ Holds P H L n env w c!"<" b a := by
  rw [holds_lt hs] at *
  intro h'
  rw [Expr.swap_some h] at h'
  cases h'

theorem C36_transitive (hs : StdCmp env) {a b c : Expr} (h1 : Holds P H L n env w c!"<" a b)
    (h2 : Holds P H L n env w c!"<" b c) : Holds P H L n env w c!"<" a c := by
  rw [holds_lt hs] at *
  exact Expr.partialCmp_lt_trans _ _ _ h1 h2

/-- C36, `<=` is transitive too. -/
theorem C36_le_transitive (hs : StdCmp env) {a b c : Expr} (h1 : Holds P H L n env w c!"<=" a b)
    (h2 : Holds P H L n env w c!"<=" b c) : Holds P H L n env w c!"<=" a c := by
  rw [holds_le hs] at *
  rcases h1 with h1 | h1
  · rcases h2 with h2 | h2
    · exact .inl (Expr.partialCmp_lt_trans _ _ _ h1 h2)
    · rw [Expr.partialCmp_eq_right h2]; exact .inl h1
  · rw [Expr.partialCmp_eq_left _ _ _ h1]; exact h2

/-- C36, `>` and `>=` are `<` and `<=` with the operands exchanged. -/
theorem C36_converse (hs : StdCmp env) (a b : Expr) :
    (Holds P H L n env w c!">" a b ↔ Holds P H L n env w c!"<" b a) ∧
    (Holds P H L n env w c!">=" a b ↔ Holds P H L n env w c!"<=" b a) := by
  rw [holds_lt hs, holds_gt hs, holds_le hs, holds_ge hs, ← Expr.partialCmp_swap a b]
  cases Expr.partialCmp a b with
  | none => simp
  | some o => cases o <;> simp

/-- C36, `<` implies `<=`, and a pair related by `<=` both ways is not related by `<`. -/
theorem C36_lt_le (hs : StdCmp env) (a b : Expr) :
    Holds P H L n env w c!"<" a b ↔
      Holds P H L n env w c!"<=" a b ∧ ¬ Holds P H L n env w c!"<=" b a := by
  rw [holds_lt hs, holds_le hs, holds_le hs, ← Expr.partialCmp_swap a b]
  cases Expr.partialCmp a b with
  | none => simp
  | some o => cases o <;> simp

/-- C36, integers are ordered as numbers. -/
theorem C36_int (hs : StdCmp env) (i j : I64) :
    Holds P H L n env w c!"<" (.int i) (.int j) ↔ i.val < j.val := by
  rw [holds_lt hs]
  simp [Expr.partialCmp, Expr.compareInt_lt]

/-- C36, floating-point values are ordered as the numbers they stand for, the infinities at the two
ends; a NaN is not related to anything. -/
theorem C36_float (hs : StdCmp env) (f g : F64) :
    (Holds P H L n env w c!"<" (.float f) (.float g) ↔
      ¬ IsNaN f ∧ ¬ IsNaN g ∧ multiples f < multiples g) ∧
    (Holds P H L n env w c!"<=" (.float f) (.float g) ↔
      ¬ IsNaN f ∧ ¬ IsNaN g ∧ multiples f ≤ multiples g) := by
  rw [holds_lt hs, holds_le hs]
  simp only [Expr.partialCmp, fcmp_iff, Int.compare_eq_lt, Int.compare_eq_eq, Int.le_iff_lt_or_eq]
  refine ⟨trivial, ?_⟩
  by_cases h1 : IsNaN f <;> by_cases h2 : IsNaN g <;> simp [h1, h2]

/-- C36, `<` is total on strings. -/
theorem C36_str_total (hs : StdCmp env) (s t : Str) :
    Holds P H L n env w c!"<" (.str s) (.str t) ∨ s = t ∨
      Holds P H L n env w c!"<" (.str t) (.str s) := by
  rw [holds_lt hs, holds_lt hs]
  simp only [Expr.partialCmp, Option.some.injEq]
  rw [← cmpStr_swap s t]
  cases h : cmpStr s t with
  | eq => exact .inr (.inl ((cmpStr_eq_iff _ _).mp h))
  | _ => simp

/-- C36, strings are ordered as in a dictionary: the first difference decides. -/
theorem C36_str_lex (hs : StdCmp env) (p s t : Str) (a b : Char) (h : a.toNat < b.toNat) :
    Holds P H L n env w c!"<" (.str (p ++ a :: s)) (.str (p ++ b :: t)) ∧
    Holds P H L n env w c!"<" (.str p) (.str (p ++ a :: s)) := by
  rw [holds_lt hs, holds_lt hs]
  simp only [Expr.partialCmp, Option.some.injEq]
  induction p with
  | nil => simp [cmpStr, h]
  | cons c p ih => simpa [cmpStr] using ih

/-- The kind of a value that comparison distinguishes. -/
def orderKind : Expr → Option Nat
  | .int _ => some 0
  | .float _ => some 1
  | .str _ => some 2
  | .bytes _ => some 3
  | .list _ => some 4
  | .map _ => some 5
  | _ => none

/-- C36, values of different kinds, and values other than numbers, strings, bytes, lists and
dictionaries, are never related, not even to themselves. -/
theorem C36_unrelated (hs : StdCmp env) {op : Str} (hop : op ∈ [c!"<", c!"<=", c!">", c!">="])
    (a b : Expr) (h : orderKind a ≠ orderKind b ∨ orderKind a = none) :
    Fails P H L n env w op a b := by
  have hc : Expr.partialCmp a b = none := by
    cases a <;> cases b <;> simp [orderKind] at h <;> simp [Expr.partialCmp]
  simp only [List.mem_cons, List.not_mem_nil, or_false] at hop
  rcases hop with rfl | rfl | rfl | rfl
  · rw [fails_iff (f := Builtins.ltE) (fun _ => rfl) hs.lt]; simp [Builtins.ltE, hc]
  · rw [fails_iff (f := Builtins.leE) (fun _ => rfl) hs.le]; simp [Builtins.leE, hc]
  · rw [fails_iff (f := Builtins.gtE) (fun _ => rfl) hs.gt]; simp [Builtins.gtE, hc]
  · rw [fails_iff (f := Builtins.geE) (fun _ => rfl) hs.ge]; simp [Builtins.geE, hc]

/-! ### C37 -/

theorem holds_eq (hs : StdCmp env) (a b : Expr) :
    Holds P H L n env w c!"==" a b ↔ Expr.beq a b = true :=
  holds_iff (f := Expr.beq) (fun _ => rfl) hs.eq a b

theorem C37_symmetric (hs : StdCmp env) (a b : Expr) :
    Holds P H L n env w c!"==" a b ↔ Holds P H L n env w c!"==" b a := by
  rw [holds_eq hs, holds_eq hs, Expr.beq_comm]

/-- C37, every value without NaN equals itself, functions and code included. -/
theorem C37_reflexive (hs : StdCmp env) {a : Expr} (h : NaNFree a) :
    Holds P H L n env w c!"==" a a := by
  rw [holds_eq hs]
  exact Expr.beq_refl h

/-- C37, floating-point values are equal if they stand for the same number; so the two zeros are
equal. -/
theorem C37_float (hs : StdCmp env) (f g : F64) :
    Holds P H L n env w c!"==" (.float f) (.float g) ↔
      ¬ IsNaN f ∧ ¬ IsNaN g ∧ multiples f = multiples g := by
  rw [holds_eq hs, Expr.beq, feq_iff]

/-- C37, NaN does not equal itself. -/
theorem C37_nan (hs : StdCmp env) {f : F64} (h : IsNaN f) :
    Fails P H L n env w c!"==" (.float f) (.float f) := by
  rw [fails_iff (f := Expr.beq) (fun _ => rfl) hs.eq]
  simp [Expr.beq, F64.eq, (isNaN_iff f).2 h]

/-- C37, on values without floats and builtins, `==` is identity. -/
theorem C37_identity (hs : StdCmp env) {a : Expr} (h : Exact a) (b : Expr) :
    Holds P H L n env w c!"==" a b ↔ a = b := by
  rw [holds_eq hs]
  constructor
  · exact Expr.eq_of_beq h b
  · rintro rfl
    exact Expr.beq_refl (Expr.Exact.naNFree h)

/-- C37, `!=` is the negation of `==`. -/
theorem C37_ne (hs : StdCmp env) (a b : Expr) :
    Holds P H L n env w c!"!=" a b ↔ Fails P H L n env w c!"==" a b := by
  rw [holds_iff (f := fun a b => !Expr.beq a b) (fun _ => rfl) hs.ne,
    fails_iff (f := Expr.beq) (fun _ => rfl) hs.eq]
  simp

/-- C37, builtins are equal exactly when they have the same name. -/
theorem C37_builtin (hs : StdCmp env) (x y hx hy : Str) (i j : BId) :
    Holds P H L n env w c!"==" (.builtin x i hx) (.builtin y j hy) ↔ x = y := by
  rw [holds_eq hs]
  simp [Expr.beq]

/-- C37, an integer and a float are never equal. -/
theorem C37_int_float (hs : StdCmp env) (i : I64) (f : F64) :
    Fails P H L n env w c!"==" (.int i) (.float f) := by
  rw [fails_iff (f := Expr.beq) (fun _ => rfl) hs.eq]
  simp [Expr.beq]

/-! ### C38 -/

/-- C38, `&&`: after evaluating every argument, whether all values are truthy. -/
theorem C38_and {nm hlp : Str} {args vs : List Expr} {env2 : Env} {w2 : W}
    (hop : env.get c!"&&" = some (.builtin nm .and hlp))
    (h : Evals (evalN P H (stdB P L) n) args vs env w env2 w2) :
    ∃ r, evalN P H (stdB P L) (n + 1) (.apply (.symbol c!"&&") args) env w =
        (.ok (.bool r), env2, w2) ∧ (r = true ↔ ∀ v ∈ vs, Truthy v) := by
  refine ⟨vs.all Expr.isTruthy, ?_, by simp [isTruthy_iff]⟩
  rw [evalN_symbol hop]
  brun [Builtins.andB, h.evalList]

/-- C38, `||`: after evaluating every argument, whether some value is truthy. -/
theorem C38_or {nm hlp : Str} {args vs : List Expr} {env2 : Env} {w2 : W}
    (hop : env.get c!"||" = some (.builtin nm .or hlp))
    (h : Evals (evalN P H (stdB P L) n) args vs env w env2 w2) :
    ∃ r, evalN P H (stdB P L) (n + 1) (.apply (.symbol c!"||") args) env w =
        (.ok (.bool r), env2, w2) ∧ (r = true ↔ ∃ v ∈ vs, Truthy v) := by
  refine ⟨vs.any Expr.isTruthy, ?_, by simp [isTruthy_iff]⟩
  rw [evalN_symbol hop]
  brun [Builtins.orB, h.evalList]

/-- C38, `!`: after evaluating every argument, whether no value is truthy. -/
theorem C38_not {nm hlp : Str} {args vs : List Expr} {env2 : Env} {w2 : W}
    (hop : env.get c!"!" = some (.builtin nm .not hlp))
    (h : Evals (evalN P H (stdB P L) n) args vs env w env2 w2) :
    ∃ r, evalN P H (stdB P L) (n + 1) (.apply (.symbol c!"!") args) env w =
        (.ok (.bool r), env2, w2) ∧ (r = true ↔ ∀ v ∈ vs, ¬ Truthy v) := by
  refine ⟨vs.all fun v => !v.isTruthy, ?_, by simp [isTruthy_false_iff]⟩
  rw [evalN_symbol hop]
  brun [Builtins.notB, h.evalList]

theorem evalList_fail {ev : Expr → M W Expr} {pre vs : List Expr} {a : Expr} {post : List Expr}
    {env env1 env2 : Env} {w w1 w2 : W} {e : Error}
    (h : Evals ev pre vs env w env1 w1) (ha : ev a env1 w1 = (.err e, env2, w2)) :
    evalList ev (pre ++ a :: post) env w = (.err e, env2, w2) := by
  induction h with
  | nil => simp only [List.nil_append, evalList, M.bind_def, ha]
  | cons h _ ih =>
    simp only [List.cons_append, evalList]
    rw [M.bind_ok h]
    simp only [M.bind_def, ih ha]

/-- C38, no short-circuit: if the arguments before the `k`-th succeed (with whatever values) and the
`k`-th fails, the whole operation fails with that error. -/
theorem C38_no_short_circuit {nm hlp op : Str} {id : BId} {pre vs post : List Expr} {a : Expr}
    {env1 env2 : Env} {w1 w2 : W} {e : Error}
    (hid : (op, id) ∈ [(c!"&&", BId.and), (c!"||", BId.or), (c!"!", BId.not)])
    (hop : env.get op = some (.builtin nm id hlp))
    (h : Evals (evalN P H (stdB P L) n) pre vs env w env1 w1)
    (ha : evalN P H (stdB P L) n a env1 w1 = (.err e, env2, w2)) :
    evalN P H (stdB P L) (n + 1) (.apply (.symbol op) (pre ++ a :: post)) env w =
      (.err e, env2, w2) := by
  rw [evalN_symbol hop]
  have hl := evalList_fail (post := post) h ha
  simp only [List.mem_cons, List.not_mem_nil, or_false, Prod.mk.injEq] at hid
  rcases hid with ⟨rfl, rfl⟩ | ⟨rfl, rfl⟩ | ⟨rfl, rfl⟩
  · brun [Builtins.andB, hl]
  · brun [Builtins.orB, hl]
  · brun [Builtins.notB, hl]

end

/-! ### The hypotheses can be met -/

theorem demo_stdCmp : StdCmp Demo.env :=
  ⟨⟨_, _, rfl⟩, ⟨_, _, rfl⟩, ⟨_, _, rfl⟩, ⟨_, _, rfl⟩, ⟨_, _, rfl⟩, ⟨_, _, rfl⟩⟩

example : Holds Demo.plat Demo.host Demo.lib 0 Demo.env [] c!"<"
    (.list [.int (.lit 1), .str c!"a"]) (.list [.int (.lit 1), .str c!"b"]) := by
  rw [holds_lt demo_stdCmp]
  simp [Expr.partialCmp, Expr.partialCmpList, cmpStr]

/-- the largest number is below infinity -/
example : Holds Demo.plat Demo.host Demo.lib 0 Demo.env [] c!"<" (.float ⟨0x7fefffffffffffff⟩)
    (.float ⟨0x7ff0000000000000⟩) :=
  (C36_float demo_stdCmp ..).1.2 ⟨by decide, by decide, by decide +kernel⟩

/-- 0.0 equals -0.0, and the latter is not truthy -/
example : Holds Demo.plat Demo.host Demo.lib 0 Demo.env [] c!"==" (.float ⟨0⟩)
    (.float ⟨0x8000000000000000⟩) :=
  (C37_float demo_stdCmp ..).2 ⟨by decide, by decide, by decide⟩
example : ¬ Truthy (.float ⟨0x8000000000000000⟩) := by decide

/-- a NaN, which is truthy -/
example : IsNaN ⟨0x7ff8000000000000⟩ ∧ Truthy (.float ⟨0x7ff8000000000000⟩) := by decide

example : Holds Demo.plat Demo.host Demo.lib 0 Demo.env [] c!"==" (.map [(c!"k", .none)])
    (.map [(c!"k", .none)]) :=
  C37_reflexive demo_stdCmp (.map (by simp; exact .none))

example : (evalN Demo.plat Demo.host (stdB Demo.plat Demo.lib) 2
    (.apply (.symbol c!"||") [.bool true, .apply (.symbol c!"+") [.int .max, .int (.lit 1)]])
    Demo.env []).1 = .err (.customError c!"cannot add 9223372036854775807 and 1") := rfl

example : (evalN Demo.plat Demo.host (stdB Demo.plat Demo.lib) 1
    (.apply (.symbol c!"@") [.list [.int (.lit 5)], .int ⟨-1, by decide, by decide⟩])
    Demo.env []).1 = .ok .none := rfl

/-! ### Instances: the hypotheses can be met -/

section

private abbrev one : Expr := .int (.lit 1)
private abbrev two : Expr := .int (.lit 2)
private abbrev ab : Expr := .list [one, .str c!"b"]

private theorem lt12 (x : Expr) : Holds Demo.plat Demo.host Demo.lib 0 Demo.env [] c!"<"
    (.list [one, x]) (.list [two, x]) := by
  rw [holds_lt demo_stdCmp]
  rfl

private theorem le12 : Holds Demo.plat Demo.host Demo.lib 0 Demo.env [] c!"<=" one two := rfl

private theorem le22 : Holds Demo.plat Demo.host Demo.lib 0 Demo.env [] c!"<=" two two := rfl

example := C36_decides (P := Demo.plat) (H := Demo.host) (L := Demo.lib) (n := 0) (w := []) demo_stdCmp
  (op := c!"<=") (by decide) one (.str c!"a")

example := C36_operands (P := Demo.plat) (H := Demo.host) (L := Demo.lib) (n := 1) (w := []) demo_stdCmp
  demo_stdCmp (op := c!"<") (by decide) (a := .apply (.symbol c!"+") [one, one]) (va := two) (b := one)
  (env1 := Demo.env) (w1 := []) rfl rfl

example := C36_irreflexive (P := Demo.plat) (H := Demo.host) (L := Demo.lib) (n := 0) (w := [])
  demo_stdCmp ab

example := C36_asymmetric demo_stdCmp (lt12 ab)

example := C36_transitive demo_stdCmp (lt12 ab) (show Holds Demo.plat Demo.host Demo.lib 0 Demo.env []
  c!"<" (.list [two, ab]) (.list [two, .list [two]]) from rfl)

example := C36_le_transitive demo_stdCmp le12 le22

example := (C36_converse (P := Demo.plat) (H := Demo.host) (L := Demo.lib) (n := 0) (w := [])
  demo_stdCmp two one).2.2 le12

example := (C36_lt_le demo_stdCmp ..).1 (lt12 ab)

example := (C36_int (P := Demo.plat) (H := Demo.host) (L := Demo.lib) (n := 0) (w := []) demo_stdCmp
  .min .max).2 (by decide)

example := C36_str_total (P := Demo.plat) (H := Demo.host) (L := Demo.lib) (n := 0) (w := [])
  demo_stdCmp c!"ab" c!"b"

example := C36_str_lex (P := Demo.plat) (H := Demo.host) (L := Demo.lib) (n := 0) (w := [])
  demo_stdCmp c!"a" c!"x" [] 'b' 'ü' (by decide)

example := C36_unrelated (P := Demo.plat) (H := Demo.host) (L := Demo.lib) (n := 0) (w := [])
  demo_stdCmp (op := c!"<") (by decide) one (.str c!"a") (.inl (by decide))

example := (C37_symmetric (P := Demo.plat) (H := Demo.host) (L := Demo.lib) (n := 0) (w := [])
  demo_stdCmp ab ab).1 (C37_reflexive demo_stdCmp
    (.list (by simpa [ab] using ⟨.int _, .str _⟩)))

example := C37_nan (P := Demo.plat) (H := Demo.host) (L := Demo.lib) (n := 0) (w := []) demo_stdCmp
  (f := ⟨0x7ff8000000000000⟩) (by decide)

example : Holds Demo.plat Demo.host Demo.lib 0 Demo.env [] c!"!=" one two :=
  (C37_ne demo_stdCmp ..).2 ((C36_decides demo_stdCmp (by decide) ..).resolve_left fun h =>
    absurd ((C37_identity demo_stdCmp (.int _) _).1 h) (by simp [two, I64.lit]))

example := (C37_builtin (P := Demo.plat) (H := Demo.host) (L := Demo.lib) (n := 0) (w := [])
  demo_stdCmp c!"a" c!"a" [] c!"b" .add .sub).2 rfl

example := C37_int_float (P := Demo.plat) (H := Demo.host) (L := Demo.lib) (n := 0) (w := [])
  demo_stdCmp (.lit 0) ⟨0⟩

private theorem three_values : Evals (evalN Demo.plat Demo.host (stdB Demo.plat Demo.lib) 1)
    [.bool true, .apply (.symbol c!"+") [one, one], .str []] [.bool true, two, .str []]
    Demo.env [] Demo.env [] :=
  .cons rfl (.cons rfl (.cons rfl .nil))

example := C38_and rfl three_values
example := C38_or rfl three_values
example := C38_not rfl three_values

end

end Dune.Props
