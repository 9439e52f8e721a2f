import Verif.Proof.Curry
import Verif.Props.Lists

/-! C48, C49, C63: strings and currying. -/

namespace Dune.Props

open Spec

/-- `sub` occurs in `s`. -/
def Occurs (sub s : Str) : Prop := ∃ a b, s = a ++ sub ++ b

theorem joinStr_cons (sep x : Str) {l : List Str} (h : l ≠ []) :
    joinStr sep (x :: l) = x ++ sep ++ joinStr sep l := by
  cases l with
  | nil => exact absurd rfl h
  | cons y l => rfl

theorem splitGo_ne_nil (sep : Str) : ∀ (k : Nat) (s cur : Str), splitGo sep k s cur ≠ []
  | _, [], _ => by simp [splitGo]
  | k + 1, _ :: cs, cur => by simpa [splitGo] using splitGo_ne_nil sep k cs cur
  | 0, c :: cs, cur => by
    simp only [splitGo]
    split
    · simp
    · exact splitGo_ne_nil sep 0 cs _

theorem join_splitGo {sep : Str} (h : sep ≠ []) : ∀ (k : Nat) (s cur : Str),
    joinStr sep (splitGo sep k s cur) = cur.reverse ++ s.drop k
  | _, [], cur => by simp [splitGo, joinStr]
  | k + 1, _ :: cs, cur => by simpa [splitGo] using join_splitGo h k cs cur
  | 0, c :: cs, cur => by
    simp only [splitGo]
    split
    · rename_i hp
      rw [joinStr_cons _ _ (splitGo_ne_nil _ _ _ _), join_splitGo h]
      rw [List.isPrefixOf_iff_prefix] at hp
      obtain ⟨t, ht⟩ := hp
      have hd : cs.drop (sep.length - 1) = t := by
        cases sep with
        | nil => exact absurd rfl h
        | cons x sep =>
          simp only [List.cons_append, List.cons.injEq] at ht
          simp [← ht.2]
      simp [hd, ht]
    · rw [join_splitGo h]
      simp

theorem pieces_splitGo {sep : Str} (h : sep ≠ []) : ∀ (k : Nat) (s cur : Str),
    (k ≠ 0 → cur = []) →
    (∀ i, i < cur.length → ¬ sep <+: (cur.reverse ++ s).drop i) →
    ∀ p ∈ splitGo sep k s cur, ¬ Occurs sep p
  | _, [], cur, _, hi, p, hp => by
    simp only [splitGo, List.mem_singleton] at hp
    subst hp
    rintro ⟨a, b, hab⟩
    have hl := congrArg List.length hab
    simp only [List.length_reverse, List.length_append] at hl
    have : 0 < sep.length := List.length_pos_iff.mpr h
    refine hi a.length (by omega) ?_
    rw [List.append_nil, hab, List.append_assoc, List.drop_left]
    exact List.prefix_append _ _
  | k + 1, _ :: cs, cur, hc, hi, p, hp => by
    have hc := hc (by simp)
    subst hc
    simp only [splitGo] at hp
    exact pieces_splitGo h k cs [] (fun _ => rfl) (by simp) p hp
  | 0, c :: cs, cur, hc, hi, p, hp => by
    simp only [splitGo] at hp
    split at hp
    · rw [List.mem_cons] at hp
      rcases hp with rfl | hp
      · rintro ⟨a, b, hab⟩
        have hl := congrArg List.length hab
        simp only [List.length_reverse, List.length_append] at hl
        have : 0 < sep.length := List.length_pos_iff.mpr h
        refine hi a.length (by omega) ?_
        rw [hab, List.append_assoc, List.append_assoc, List.drop_left]
        exact List.prefix_append _ _
      · exact pieces_splitGo h _ cs [] (fun _ => rfl) (by simp) p hp
    · rename_i hn
      refine pieces_splitGo h 0 cs (c :: cur) (by simp) ?_ p hp
      intro i hil
      simp only [List.length_cons] at hil
      have e : (c :: cur).reverse ++ cs = cur.reverse ++ c :: cs := by simp
      rw [e]
      by_cases hlt : i < cur.length
      · exact hi i hlt
      · have : i = cur.reverse.length := by simp; omega
        rw [this, List.drop_left]
        rw [List.isPrefixOf_iff_prefix] at hn
        exact hn

theorem join_split (sep s : Str) : joinStr sep (splitStr sep s) = s := by
  unfold splitStr
  split
  · rename_i h
    subst h
    have : ∀ s : Str, joinStr [] ((s.map fun c => [c]) ++ [[]]) = s := by
      intro s
      induction s with
      | nil => rfl
      | cons c s ih =>
        rw [List.map_cons, List.cons_append, joinStr_cons _ _ (by simp), ih]
        simp
    rw [List.cons_append, joinStr_cons _ _ (by simp), this]
    simp
  · rename_i h
    rw [join_splitGo h]
    rfl

section

variable {W : Type} {P : Plat} {H : Host W} {L : Lib} {n : Nat} {env env1 env2 env3 : Env}
  {w w1 w2 w3 : W}

/-! ### C48 -/

theorem eval_split_str (hs : Std env) (h0 : env.get c!"arg0" = none) {a b : Expr} {sep s : Str}
    (ha : evalD P H (bodyRun P H (stdB P L) n) 800 a env w = (.ok (.str sep), env1, w1))
    (hb : evalD P H (bodyRun P H (stdB P L) n) 799 b env1 w1 = (.ok (.str s), env2, w2)) :
    evalN P H (stdB P L) (n + 2) (call c!"string" c!"split" [a, b]) env w =
      (.ok (.list ((splitStr sep s).map .str)), env2, w2) := by
  rw [eval_split hs ha hb, h0]
  brun [Builtins.split2B, curryArgs, Builtins.strOrSym]

/-- C48, `string@split sep s` cuts `s` into strings none of which contains the separator, and which
joined with `string@join` and the same separator give back `s`; also for the empty separator. (The
caller must not have a variable `arg0`, see C63.) -/
theorem C48_join_split (hs : Std env) (h0 : env.get c!"arg0" = none) {a b c : Expr} {sep s : Str}
    (ha : evalD P H (bodyRun P H (stdB P L) n) 800 a env w = (.ok (.str sep), env1, w1))
    (hb : evalD P H (bodyRun P H (stdB P L) n) 799 b env1 w1 = (.ok (.str s), env2, w2))
    (hc : evalN P H (stdB P L) (n + 2) c env2 w2 = (.ok (.str sep), env3, w3)) :
    evalN P H (stdB P L) (n + 3)
        (call c!"string" c!"join" [call c!"string" c!"split" [a, b], c]) env w =
      (.ok (.str s), env3, w3) := by
  have h1 := eval_split_str hs h0 ha hb
  lib hs, Init.stringM
  brun [Builtins.joinB, h1, hc]
  have : (display P ∘ Expr.str) = id := rfl
  rw [this, List.map_id, show display P (.str sep) = sep from rfl, join_split]

/-- C48, the pieces. -/
theorem C48_pieces (hs : Std env) (h0 : env.get c!"arg0" = none) {a b : Expr} {sep s : Str}
    (ha : evalD P H (bodyRun P H (stdB P L) n) 800 a env w = (.ok (.str sep), env1, w1))
    (hb : evalD P H (bodyRun P H (stdB P L) n) 799 b env1 w1 = (.ok (.str s), env2, w2)) :
    ∃ ps : List Str, evalN P H (stdB P L) (n + 2) (call c!"string" c!"split" [a, b]) env w =
        (.ok (.list (ps.map .str)), env2, w2) ∧
      (sep ≠ [] → ∀ p ∈ ps, ¬ Occurs sep p) ∧
      (sep = [] → ps = [] :: (s.map fun c => [c]) ++ [[]]) := by
  refine ⟨splitStr sep s, eval_split_str hs h0 ha hb, ?_, ?_⟩
  · intro h p hp
    rw [splitStr, if_neg h] at hp
    exact pieces_splitGo h 0 s [] (by simp) (by simp) p hp
  · intro h
    rw [splitStr, if_pos h]

example : (evalN Demo.plat Demo.host (stdB Demo.plat Demo.lib) 2
    (call c!"string" c!"split" [.str c!"--", .str c!"a---b"]) Demo.env []).1 =
    .ok (.list [.str c!"a", .str c!"-b"]) := rfl
example : Demo.env.get c!"arg0" = none := rfl

/-! ### C63 -/

/-- C63, if the caller has a variable `arg0`, `string@split` uses its value instead of the separator
given: the result does not depend on the first argument at all. -/
theorem C63_split (hs : Std env) {u : Str} (h0 : env.get c!"arg0" = some (.str u)) {a b va : Expr}
    {s : Str}
    (ha : evalD P H (bodyRun P H (stdB P L) n) 800 a env w = (.ok va, env1, w1))
    (hb : evalD P H (bodyRun P H (stdB P L) n) 799 b env1 w1 = (.ok (.str s), env2, w2)) :
    evalN P H (stdB P L) (n + 2) (call c!"string" c!"split" [a, b]) env w =
      (.ok (.list ((splitStr u s).map .str)), env2, w2) := by
  rw [eval_split hs ha hb, h0]
  brun [Builtins.split2B, curryArgs, Builtins.strOrSym]

/-- C63, a function made from a builtin by `fn@curry f 2` ignores its first argument if the caller
has a variable `arg0`: two calls with different first arguments give the same result. -/
theorem C63_curry_ignores (hs : Std env) {u : Expr} (h0 : env.get c!"arg0" = some u)
    {fe a a' b va va' vb : Expr} {nm hlp : Str} {id : BId}
    (hfe : evalN P H (stdB P L) n fe env w = (.ok (.builtin nm id hlp), env, w))
    (ha : evalD P H (bodyRun P H (stdB P L) n) 800 a env w = (.ok va, env1, w1))
    (ha' : evalD P H (bodyRun P H (stdB P L) n) 800 a' env w = (.ok va', env1, w1))
    (hb : evalD P H (bodyRun P H (stdB P L) n) 799 b env1 w1 = (.ok vb, env2, w2)) :
    evalN P H (stdB P L) (n + 1)
        (.apply (call c!"fn" c!"curry" [fe, .int (.lit 2)]) [a, b]) env w =
      evalN P H (stdB P L) (n + 1)
        (.apply (call c!"fn" c!"curry" [fe, .int (.lit 2)]) [a', b]) env w := by
  rw [eval_curry hs hfe ha hb, eval_curry hs hfe ha' hb, h0]
  rfl

/-- C63, for `+` on strings: `(fn@curry + 2) a b` is the variable `arg0` followed by `b`, or `a`
followed by `b` if there is no such variable. -/
theorem C63_curry_add (hs : Std env) {o : Option Str} (h0 : env.get c!"arg0" = o.map .str)
    {a b : Expr} {x y : Str}
    (ha : evalD P H (bodyRun P H (stdB P L) n) 800 a env w = (.ok (.str x), env1, w1))
    (hb : evalD P H (bodyRun P H (stdB P L) n) 799 b env1 w1 = (.ok (.str y), env2, w2)) :
    evalN P H (stdB P L) (n + 1)
        (.apply (call c!"fn" c!"curry" [.symbol c!"+", .int (.lit 2)]) [a, b]) env w =
      (.ok (.str (o.getD x ++ y)), env2, w2) := by
  have hf : evalN P H (stdB P L) n (.symbol c!"+") env w =
      (.ok (.builtin c!"+" .add []), env, w) := by
    cases n <;> exact evalD_symbol (k := 800) (hs.op (Init.b c!"+" .add) (by mem_tac))
  rw [eval_curry hs hf ha hb, h0]
  cases o <;> brun [stdB, Builtins.addB, curryArgs, Builtins.opLoop, Expr.add]

example : (evalN Demo.plat Demo.host (stdB Demo.plat Demo.lib) 2
    (call c!"string" c!"split" [.str c!",", .str c!"a,b;c"])
    (Demo.env.define c!"arg0" (.str c!";")) []).1 = .ok (.list [.str c!"a,b", .str c!"c"]) := rfl
example : (evalN Demo.plat Demo.host (stdB Demo.plat Demo.lib) 4
    (.apply (call c!"fn" c!"curry" [.symbol c!"+", .int (.lit 2)]) [.str c!"a", .str c!"b"])
    (Demo.env.define c!"arg0" (.str c!"x")) []).1 = .ok (.str c!"xb") := rfl

end

/-! ### Instances: the hypotheses can be met -/

example := C48_join_split (P := Demo.plat) (H := Demo.host) (L := Demo.lib) (n := 0) (w := [])
  demo_std rfl (a := .str c!"--") (b := .str c!"a---b") (c := .str c!"--") rfl rfl rfl

theorem demo_arg0 (v : Expr) : Std (Demo.env.define c!"arg0" v) where
  op p hp := by
    rw [Env.get_define, if_neg ((by decide : ∀ p ∈ Init.ops, ¬ c!"arg0" = p.1) p hp)]
    exact demo_std.op p hp
  top p hp := by
    rw [Env.get_define, if_neg ((by decide : ∀ p ∈ Init.top, ¬ c!"arg0" = p.1) p hp)]
    exact demo_std.top p hp
  mod p hp := by
    rw [Env.get_define, if_neg ((by decide : ∀ p ∈ Init.modules, ¬ c!"arg0" = p.1) p hp)]
    exact demo_std.mod p hp

example := C63_split (P := Demo.plat) (H := Demo.host) (L := Demo.lib) (n := 0) (w := [])
  (env := Demo.env.define c!"arg0" (.str c!";")) (u := c!";")
  (demo_arg0 _) (by rw [Env.get_define, if_pos rfl])
  (a := .str c!",") (b := .str c!"a,b;c") rfl rfl

example := C63_curry_ignores (P := Demo.plat) (H := Demo.host) (L := Demo.lib) (n := 2) (w := [])
  (env := Demo.env.define c!"arg0" (.str c!"x")) (u := .str c!"x")
  (demo_arg0 _) (by rw [Env.get_define, if_pos rfl])
  (fe := .symbol c!"+") (a := .str c!"a") (a' := .int (.lit 1)) (b := .str c!"b") rfl rfl rfl rfl

end Dune.Props
