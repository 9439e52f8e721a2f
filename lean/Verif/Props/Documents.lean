import Verif.Props.Arith
import Verif.Proof.Lib

/-!
C82: what `parse@json` and `parse@toml` make of a document, as seen by looking things up in the
result.  The parsers of the two crates are given (`Lib.json`, `Lib.toml`).
-/

namespace Dune.Props

open Spec

/-- One step into a document: `@"key"` or `@3`. -/
inductive Step
  | key (k : Str)
  | idx (i : I64) (h : 0 ≤ i.val)

/-- how the step is written after `@` -/
def Step.expr : Step → Expr
  | .key k => .str k
  | .idx i _ => .int i

/-- The value of the last entry with this key. -/
def LastEntry {α : Type} (m : List (Str × α)) (k : Str) (v : α) : Prop :=
  ∃ before after, m = before ++ (k, v) :: after ∧ ∀ p ∈ after, p.1 ≠ k

/-! ### Helper lemmas -/

theorem get_extend {α : Type} : ∀ (l : List (Str × α)) (m : BMap α) (k : Str),
    (∀ v, LastEntry l k v → BMap.get? (BMap.extend m l) k = some v) ∧
    ((∀ p ∈ l, p.1 ≠ k) → BMap.get? (BMap.extend m l) k = BMap.get? m k)
  | [], m, k => by
    refine ⟨?_, fun _ => rfl⟩
    rintro v ⟨b, a, h, _⟩
    cases b <;> simp at h
  | (k', v') :: l, m, k => by
    obtain ⟨h1, h2⟩ := get_extend l (BMap.insert m k' v') k
    constructor
    · rintro v ⟨b, a, h, hn⟩
      cases b with
      | nil =>
        simp only [List.nil_append, List.cons.injEq, Prod.mk.injEq] at h
        obtain ⟨⟨rfl, rfl⟩, rfl⟩ := h
        rw [BMap.extend, h2 hn, BMap.get?_insert, if_pos rfl]
      | cons p b =>
        simp only [List.cons_append, List.cons.injEq] at h
        exact h1 v ⟨b, a, h.2, hn⟩
    · intro hn
      rw [BMap.extend, h2 fun p hp => hn p (List.mem_cons_of_mem _ hp), BMap.get?_insert,
        if_neg (hn (k', v') (List.mem_cons_self ..))]

theorem lastEntry_of_mem {α : Type} : ∀ {l : List (Str × α)} {k : Str}, (∃ p ∈ l, p.1 = k) →
    ∃ v, LastEntry l k v
  | [], k, h => by simp at h
  | (k', v') :: l, k, h => by
    by_cases hl : ∃ p ∈ l, p.1 = k
    · obtain ⟨v, b, a, e, hn⟩ := lastEntry_of_mem hl
      exact ⟨v, (k', v') :: b, a, by rw [e]; rfl, hn⟩
    · have : k' = k := by
        obtain ⟨p, hp, rfl⟩ := h
        rcases List.mem_cons.1 hp with rfl | hp
        · rfl
        · exact absurd ⟨p, hp, rfl⟩ hl
      subst this
      exact ⟨v', [], l, rfl, fun p hp e => hl ⟨p, hp, e⟩⟩

/-- `e@step@step...` for a value -/
def stepsOf : Expr → List Step → Expr
  | v, [] => v
  | v, s :: p => stepsOf (Expr.index v s.expr) p

theorem stepsOf_none : ∀ p, stepsOf .none p = .none
  | [] => rfl
  | s :: p => by
    rw [stepsOf]
    cases s <;> exact stepsOf_none p

section

variable {W : Type} {P : Plat} {H : Host W} {L : Lib} {n : Nat} {env env1 : Env} {w w1 : W}

theorem run_indexLoop : ∀ (p : List Step) (v : Expr) (env : Env) (w : W),
    (Builtins.indexLoop v (p.map Step.expr)).run H (evalN P H (stdB P L) n) env w =
      (.ok (stepsOf v p), env, w)
  | [], v, env, w => rfl
  | s :: p, v, env, w => by
    have ih := run_indexLoop p (Expr.index v s.expr) env w
    cases s with
    | key k =>
      simp only [Step.expr, List.map_cons, stepsOf, Builtins.indexLoop, BProg.run_bind, BProg.run_ev]
        at ih ⊢
      rw [M.bind_ok (evalN_str ..), ih]
    | idx i h =>
      simp only [Step.expr, List.map_cons, stepsOf, Builtins.indexLoop, BProg.run_bind,
        BProg.run_ret, pure_bind] at ih ⊢
      rw [ih]

theorem eval_steps (hs : Std env) {a v : Expr} (p : List Step)
    (ha : evalN P H (stdB P L) n a env w = (.ok v, env1, w1)) :
    evalN P H (stdB P L) (n + 1) (.apply (.symbol c!"@") (a :: p.map Step.expr)) env w =
      (.ok (stepsOf v p), env1, w1) := by
  have hat : env.get c!"@" = some (.builtin c!"@" .index []) :=
    hs.op (Init.b c!"@" .index) (by mem_tac)
  rw [evalN_symbol hat, evalN_builtin]
  simp only [stdB, Builtins.indexB, Builtins.evArg, Builtins.arg, List.getElem?_cons_zero,
    BProg.run_bind, BProg.run_ret, pure_bind, BProg.run_ev, List.tail_cons]
  rw [M.bind_ok ha, run_indexLoop]

theorem getD_asUsize {l : List Expr} {i : I64} (h : 0 ≤ i.val) :
    l.getD i.asUsize .none = (l[i.val.toNat]?).getD .none := by
  rw [asUsize_of_nonneg h]
  simp

/-! ### JSON -/

/-- What is found in a document by these steps. -/
inductive JsonAt : Json → List Step → Json → Prop
  | here (j : Json) : JsonAt j [] j
  | item {l : List Json} {i : I64} {h : 0 ≤ i.val} {j r : Json} {p : List Step} :
    l[i.val.toNat]? = some j → JsonAt j p r → JsonAt (.arr l) (.idx i h :: p) r
  | entry {m : List (Str × Json)} {k : Str} {j r : Json} {p : List Step} :
    LastEntry m k j → JsonAt j p r → JsonAt (.obj m) (.key k :: p) r

/-- The value a user gets for a part of a document.  All numbers become floating-point numbers, also
integers. -/
def JsonShows (P : Plat) : Json → Expr → Prop
  | .null, e => e = .none
  | .bool b, e => e = .bool b
  | .num neg digits exp, e => e = .float (P.fOfDec neg digits exp)
  | .str s, e => e = .str s
  | .arr l, e => ∃ vs, e = .list vs ∧ vs.length = l.length
  | .obj m, e => ∃ t : BMap Expr, e = .map t ∧ ∀ k, (t.get? k).isSome = true ↔ ∃ p ∈ m, p.1 = k

theorem jsonToExprs_eq (P : Plat) : ∀ l : List Json, Builtins.jsonToExprs P l = l.map (Builtins.jsonToExpr P)
  | [] => rfl
  | j :: l => by rw [Builtins.jsonToExprs, jsonToExprs_eq P l, List.map_cons]

theorem jsonToEntries_eq (P : Plat) : ∀ m : List (Str × Json),
    Builtins.jsonToEntries P m = m.map fun p => (p.1, Builtins.jsonToExpr P p.2)
  | [] => rfl
  | (k, j) :: m => by rw [Builtins.jsonToEntries, jsonToEntries_eq P m, List.map_cons]

theorem json_get_last (P : Plat) {m : List (Str × Json)} {k : Str} {j : Json} (h : LastEntry m k j) :
    BMap.get? (BMap.ofList (Builtins.jsonToEntries P m)) k = some (Builtins.jsonToExpr P j) := by
  obtain ⟨b, a, e, hn⟩ := h
  refine (get_extend _ [] k).1 _ ⟨b.map fun p => (p.1, Builtins.jsonToExpr P p.2),
    a.map fun p => (p.1, Builtins.jsonToExpr P p.2), ?_, ?_⟩
  · rw [jsonToEntries_eq, e, List.map_append, List.map_cons]
  · intro p hp
    obtain ⟨q, hq, rfl⟩ := List.mem_map.1 hp
    exact hn q hq

theorem json_get_none (P : Plat) {m : List (Str × Json)} {k : Str} (h : ∀ p ∈ m, p.1 ≠ k) :
    BMap.get? (BMap.ofList (Builtins.jsonToEntries P m)) k = none := by
  refine ((get_extend _ [] k).2 ?_).trans rfl
  intro p hp
  rw [jsonToEntries_eq] at hp
  obtain ⟨q, hq, rfl⟩ := List.mem_map.1 hp
  exact h q hq

theorem json_shows (P : Plat) : ∀ r : Json, JsonShows P r (Builtins.jsonToExpr P r)
  | .null => rfl
  | .bool _ => rfl
  | .num .. => rfl
  | .str _ => rfl
  | .arr l => ⟨_, rfl, by rw [jsonToExprs_eq, List.length_map]⟩
  | .obj m => by
    refine ⟨_, rfl, fun k => ?_⟩
    constructor
    · intro h
      by_cases hk : ∃ p ∈ m, p.1 = k
      · exact hk
      · rw [json_get_none P (fun p hp e => hk ⟨p, hp, e⟩)] at h
        simp at h
    · intro h
      obtain ⟨j, hj⟩ := lastEntry_of_mem h
      rw [json_get_last P hj]
      rfl

theorem json_steps (P : Plat) {j r : Json} {p : List Step} (h : JsonAt j p r) :
    stepsOf (Builtins.jsonToExpr P j) p = Builtins.jsonToExpr P r := by
  induction h with
  | here j => rfl
  | @item l i h j r p hi _ ih =>
    rw [stepsOf, Step.expr, Builtins.jsonToExpr, Expr.index, getD_asUsize h, jsonToExprs_eq,
      List.getElem?_map, hi]
    exact ih
  | @entry m k j r p hk _ ih =>
    rw [stepsOf, Step.expr, Builtins.jsonToExpr, Expr.index, json_get_last P hk]
    exact ih

theorem json_missing (P : Plat) : ∀ (p : List Step) (j : Json), (∀ r, ¬ JsonAt j p r) →
    stepsOf (Builtins.jsonToExpr P j) p = .none
  | [], j, h => absurd (.here j) (h j)
  | s :: p, j, h => by
    rw [stepsOf]
    cases j with
    | arr l =>
      cases s with
      | key k => rw [Builtins.jsonToExpr, Step.expr, Expr.index]; exacts [stepsOf_none p, by simp, by simp, by simp]
      | idx i hi =>
        rw [Builtins.jsonToExpr, Step.expr, Expr.index, getD_asUsize hi, jsonToExprs_eq, List.getElem?_map]
        cases e : l[i.val.toNat]? with
        | none => exact stepsOf_none p
        | some j => exact json_missing P p j fun r hr => h r (.item e hr)
    | obj m =>
      cases s with
      | idx i hi => rw [Builtins.jsonToExpr, Step.expr, Expr.index]; exacts [stepsOf_none p, by simp, by simp, by simp]
      | key k =>
        rw [Builtins.jsonToExpr, Step.expr, Expr.index]
        by_cases hk : ∃ q ∈ m, q.1 = k
        · obtain ⟨j, hj⟩ := lastEntry_of_mem hk
          rw [json_get_last P hj]
          exact json_missing P p j fun r hr => h r (.entry hj hr)
        · rw [json_get_none P (fun q hq e => hk ⟨q, hq, e⟩)]
          exact stepsOf_none p
    | _ => cases s <;> exact stepsOf_none p

/-- C82.  Looking something up in `parse@json text` finds what is at that place in the document. -/
theorem C82_json (hs : Std env) {a v : Expr} {j r : Json} {p : List Step}
    (ha : evalN P H (stdB P L) n a env w = (.ok v, env1, w1))
    (hne : display P v ≠ [])
    (hj : L.json (display P v) = some j) (hp : JsonAt j p r) :
    ∃ u, evalN P H (stdB P L) (n + 2)
        (.apply (.symbol c!"@") (call c!"parse" c!"json" [a] :: p.map Step.expr)) env w =
      (.ok u, env1, w1) ∧ JsonShows P r u := by
  have h : evalN P H (stdB P L) (n + 1) (call c!"parse" c!"json" [a]) env w =
      (.ok (Builtins.jsonToExpr P j), env1, w1) := by
    lib hs, Init.parseM
    brun [Builtins.jsonB, Builtins.checkExact, ha, hj, hne]
  exact ⟨_, eval_steps hs p h, by rw [json_steps P hp]; exact json_shows P r⟩

/-- C82.  Where there is nothing, `None` is found. -/
theorem C82_json_missing (hs : Std env) {a v : Expr} {j : Json} {p : List Step}
    (ha : evalN P H (stdB P L) n a env w = (.ok v, env1, w1))
    (hne : display P v ≠ [])
    (hj : L.json (display P v) = some j) (hp : ∀ r, ¬ JsonAt j p r) :
    evalN P H (stdB P L) (n + 2)
        (.apply (.symbol c!"@") (call c!"parse" c!"json" [a] :: p.map Step.expr)) env w =
      (.ok .none, env1, w1) := by
  have h : evalN P H (stdB P L) (n + 1) (call c!"parse" c!"json" [a]) env w =
      (.ok (Builtins.jsonToExpr P j), env1, w1) := by
    lib hs, Init.parseM
    brun [Builtins.jsonB, Builtins.checkExact, ha, hj, hne]
  rw [eval_steps hs p h, json_missing P p j hp]

/-- C82.  A text that is not a document is an error. -/
theorem C82_json_error (hs : Std env) {a v : Expr}
    (ha : evalN P H (stdB P L) n a env w = (.ok v, env1, w1))
    (hne : display P v ≠ [])
    (hj : L.json (display P v) = none) :
    evalN P H (stdB P L) (n + 1) (call c!"parse" c!"json" [a]) env w =
      (.err (.customError (c!"could not parse `" ++ display P v ++ c!"` as JSON")), env1, w1) := by
  lib hs, Init.parseM
  brun [Builtins.jsonB, Builtins.checkExact, ha, hj, hne]

/-- C82.  The empty text is the document `None`. -/
theorem C82_json_empty (hs : Std env) {a v : Expr}
    (ha : evalN P H (stdB P L) n a env w = (.ok v, env1, w1)) (he : display P v = []) :
    evalN P H (stdB P L) (n + 1) (call c!"parse" c!"json" [a]) env w = (.ok .none, env1, w1) := by
  lib hs, Init.parseM
  brun [Builtins.jsonB, Builtins.checkExact, ha, he]

/-! ### TOML -/

/-- What is found in a document by these steps. -/
inductive TomlAt : Toml → List Step → Toml → Prop
  | here (j : Toml) : TomlAt j [] j
  | item {l : List Toml} {i : I64} {h : 0 ≤ i.val} {j r : Toml} {p : List Step} :
    l[i.val.toNat]? = some j → TomlAt j p r → TomlAt (.arr l) (.idx i h :: p) r
  | entry {m : List (Str × Toml)} {k : Str} {j r : Toml} {p : List Step} :
    LastEntry m k j → TomlAt j p r → TomlAt (.table m) (.key k :: p) r

/-- The value a user gets for a part of a document; a date becomes its text. -/
def TomlShows : Toml → Expr → Prop
  | .bool b, e => e = .bool b
  | .int i, e => e = .int i
  | .float f, e => e = .float f
  | .datetime s, e => e = .str s
  | .str s, e => e = .str s
  | .arr l, e => ∃ vs, e = .list vs ∧ vs.length = l.length
  | .table m, e => ∃ t : BMap Expr, e = .map t ∧ ∀ k, (t.get? k).isSome = true ↔ ∃ p ∈ m, p.1 = k

theorem tomlToExprs_eq : ∀ l : List Toml, Builtins.tomlToExprs l = l.map (Builtins.tomlToExpr)
  | [] => rfl
  | j :: l => by rw [Builtins.tomlToExprs, tomlToExprs_eq l, List.map_cons]

theorem tomlToEntries_eq : ∀ m : List (Str × Toml),
    Builtins.tomlToEntries m = m.map fun p => (p.1, Builtins.tomlToExpr p.2)
  | [] => rfl
  | (k, j) :: m => by rw [Builtins.tomlToEntries, tomlToEntries_eq m, List.map_cons]

theorem toml_get_last {m : List (Str × Toml)} {k : Str} {j : Toml} (h : LastEntry m k j) :
    BMap.get? (BMap.ofList (Builtins.tomlToEntries m)) k = some (Builtins.tomlToExpr j) := by
  obtain ⟨b, a, e, hn⟩ := h
  refine (get_extend _ [] k).1 _ ⟨b.map fun p => (p.1, Builtins.tomlToExpr p.2),
    a.map fun p => (p.1, Builtins.tomlToExpr p.2), ?_, ?_⟩
  · rw [tomlToEntries_eq, e, List.map_append, List.map_cons]
  · intro p hp
    obtain ⟨q, hq, rfl⟩ := List.mem_map.1 hp
    exact hn q hq

theorem toml_get_none {m : List (Str × Toml)} {k : Str} (h : ∀ p ∈ m, p.1 ≠ k) :
    BMap.get? (BMap.ofList (Builtins.tomlToEntries m)) k = none := by
  refine ((get_extend _ [] k).2 ?_).trans rfl
  intro p hp
  rw [tomlToEntries_eq] at hp
  obtain ⟨q, hq, rfl⟩ := List.mem_map.1 hp
  exact h q hq

theorem toml_shows : ∀ r : Toml, TomlShows r (Builtins.tomlToExpr r)
  | .bool _ => rfl
  | .int _ => rfl
  | .float _ => rfl
  | .datetime _ => rfl
  | .str _ => rfl
  | .arr l => ⟨_, rfl, by rw [tomlToExprs_eq, List.length_map]⟩
  | .table m => by
    refine ⟨_, rfl, fun k => ?_⟩
    constructor
    · intro h
      by_cases hk : ∃ p ∈ m, p.1 = k
      · exact hk
      · rw [toml_get_none (fun p hp e => hk ⟨p, hp, e⟩)] at h
        simp at h
    · intro h
      obtain ⟨j, hj⟩ := lastEntry_of_mem h
      rw [toml_get_last hj]
      rfl

theorem toml_steps {j r : Toml} {p : List Step} (h : TomlAt j p r) :
    stepsOf (Builtins.tomlToExpr j) p = Builtins.tomlToExpr r := by
  induction h with
  | here j => rfl
  | @item l i h j r p hi _ ih =>
    rw [stepsOf, Step.expr, Builtins.tomlToExpr, Expr.index, getD_asUsize h, tomlToExprs_eq,
      List.getElem?_map, hi]
    exact ih
  | @entry m k j r p hk _ ih =>
    rw [stepsOf, Step.expr, Builtins.tomlToExpr, Expr.index, toml_get_last hk]
    exact ih

theorem toml_missing : ∀ (p : List Step) (j : Toml), (∀ r, ¬ TomlAt j p r) →
    stepsOf (Builtins.tomlToExpr j) p = .none
  | [], j, h => absurd (.here j) (h j)
  | s :: p, j, h => by
    rw [stepsOf]
    cases j with
    | arr l =>
      cases s with
      | key k => rw [Builtins.tomlToExpr, Step.expr, Expr.index]; exacts [stepsOf_none p, by simp, by simp, by simp]
      | idx i hi =>
        rw [Builtins.tomlToExpr, Step.expr, Expr.index, getD_asUsize hi, tomlToExprs_eq, List.getElem?_map]
        cases e : l[i.val.toNat]? with
        | none => exact stepsOf_none p
        | some j => exact toml_missing p j fun r hr => h r (.item e hr)
    | table m =>
      cases s with
      | idx i hi => rw [Builtins.tomlToExpr, Step.expr, Expr.index]; exacts [stepsOf_none p, by simp, by simp, by simp]
      | key k =>
        rw [Builtins.tomlToExpr, Step.expr, Expr.index]
        by_cases hk : ∃ q ∈ m, q.1 = k
        · obtain ⟨j, hj⟩ := lastEntry_of_mem hk
          rw [toml_get_last hj]
          exact toml_missing p j fun r hr => h r (.entry hj hr)
        · rw [toml_get_none (fun q hq e => hk ⟨q, hq, e⟩)]
          exact stepsOf_none p
    | _ => cases s <;> exact stepsOf_none p

/-- C82.  Looking something up in `parse@toml text` finds what is at that place in the document. -/
theorem C82_toml (hs : Std env) {a v : Expr} {j r : Toml} {p : List Step}
    (ha : evalN P H (stdB P L) n a env w = (.ok v, env1, w1))
    (hj : L.toml (display P v) = some j) (hp : TomlAt j p r) :
    ∃ u, evalN P H (stdB P L) (n + 2)
        (.apply (.symbol c!"@") (call c!"parse" c!"toml" [a] :: p.map Step.expr)) env w =
      (.ok u, env1, w1) ∧ TomlShows r u := by
  have h : evalN P H (stdB P L) (n + 1) (call c!"parse" c!"toml" [a]) env w =
      (.ok (Builtins.tomlToExpr j), env1, w1) := by
    lib hs, Init.parseM
    brun [Builtins.tomlB, Builtins.checkExact, ha, hj]
  exact ⟨_, eval_steps hs p h, by rw [toml_steps hp]; exact toml_shows r⟩

/-- C82.  Where there is nothing, `None` is found. -/
theorem C82_toml_missing (hs : Std env) {a v : Expr} {j : Toml} {p : List Step}
    (ha : evalN P H (stdB P L) n a env w = (.ok v, env1, w1))
    (hj : L.toml (display P v) = some j) (hp : ∀ r, ¬ TomlAt j p r) :
    evalN P H (stdB P L) (n + 2)
        (.apply (.symbol c!"@") (call c!"parse" c!"toml" [a] :: p.map Step.expr)) env w =
      (.ok .none, env1, w1) := by
  have h : evalN P H (stdB P L) (n + 1) (call c!"parse" c!"toml" [a]) env w =
      (.ok (Builtins.tomlToExpr j), env1, w1) := by
    lib hs, Init.parseM
    brun [Builtins.tomlB, Builtins.checkExact, ha, hj]
  rw [eval_steps hs p h, toml_missing p j hp]

/-- C82.  A text that is not a document is an error. -/
theorem C82_toml_error (hs : Std env) {a v : Expr}
    (ha : evalN P H (stdB P L) n a env w = (.ok v, env1, w1))
    (hj : L.toml (display P v) = none) :
    evalN P H (stdB P L) (n + 1) (call c!"parse" c!"toml" [a]) env w =
      (.err (.customError (c!"could not parse `" ++ display P v ++ c!"` as TOML")), env1, w1) := by
  lib hs, Init.parseM
  brun [Builtins.tomlB, Builtins.checkExact, ha, hj]

/-! ### Examples -/

/-- `{"a": [true, {"b": 5}], "c": ["x"]}` -/
def docJson : Json := .obj [(c!"a", .arr [.bool true, .obj [(c!"b", .num false 5 0)]]),
  (c!"c", .arr [.str c!"x"])]

def docLib : Lib := { Demo.lib with
  json := fun _ => some docJson
  toml := fun _ => some (.table [(c!"a", .arr [.int (.lit 5)])]) }

def ix (n : Nat) (h : n < 9223372036854775808 := by decide) : Step :=
  .idx ⟨n, by omega, by omega⟩ (by simp)

/-- the step `"a"`, 1, `"b"` leads to the number -/
example : JsonAt docJson [.key c!"a", ix 1, .key c!"b"] (.num false 5 0) :=
  .entry ⟨[], _, rfl, by decide⟩ (.item rfl (.entry ⟨[], [], rfl, by simp⟩ (.here _)))

example : ∃ u, evalN Demo.plat Demo.host (stdB Demo.plat docLib) 2
    (.apply (.symbol c!"@") (call c!"parse" c!"json" [.str c!"..."] ::
      [Step.key c!"a", ix 1, .key c!"b"].map Step.expr)) Demo.env [] = (.ok u, Demo.env, []) ∧
    u = .float (Demo.plat.fOfDec false 5 0) :=
  C82_json (P := Demo.plat) (H := Demo.host) (L := docLib) (n := 0) (w := []) (w1 := [])
    (a := .str c!"...") (v := .str c!"...") (p := [Step.key c!"a", ix 1, .key c!"b"])
    (r := .num false 5 0) demo_std (evalN_str ..) (by decide) (j := docJson) rfl
    (.entry ⟨[], _, rfl, by decide⟩ (.item rfl (.entry ⟨[], [], rfl, by simp⟩ (.here _))))

example : ∀ r, ¬ JsonAt docJson [.key c!"a", ix 2] r := by
  intro r h
  cases h with
  | entry hk h =>
    obtain ⟨b, a, e, _⟩ := hk
    rcases b with _ | ⟨_, _ | ⟨_, b⟩⟩
    · simp only [List.nil_append, List.cons.injEq, Prod.mk.injEq] at e
      obtain ⟨⟨_, rfl⟩, _⟩ := e
      cases h with
      | item hi _ => simp at hi
    · simp at e
    · simp at e

example : TomlAt (.table [(c!"a", .arr [.int (.lit 5)])]) [.key c!"a", ix 0] (.int (.lit 5)) :=
  .entry ⟨[], [], rfl, by simp⟩ (.item rfl (.here _))

end

/-! ### Instances: the hypotheses can be met -/

example := C82_json_error (P := Demo.plat) (H := Demo.host) (L := Demo.lib) (n := 0) (w := [])
  demo_std (a := .str c!"{") rfl (by decide) rfl

example := C82_json_empty (P := Demo.plat) (H := Demo.host) (L := Demo.lib) (n := 0) (w := [])
  demo_std (a := .str []) rfl rfl

example := C82_toml (P := Demo.plat) (H := Demo.host) (L := docLib) (n := 0) (w := []) demo_std (a := .str c!"...")
  (p := [.key c!"a", ix 0]) rfl rfl (.entry ⟨[], [], rfl, by simp⟩ (.item rfl (.here _)))

example := C82_toml_missing (P := Demo.plat) (H := Demo.host) (L := docLib) (n := 0) (w := []) demo_std
  (a := .str c!"...") (p := [ix 0]) rfl rfl (by intro r h; cases h)

end Dune.Props
