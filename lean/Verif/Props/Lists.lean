import Verif.Props.Arith
import Verif.Proof.Lib

/-!
C39–C44: the list and function modules.  Library functions are called by their documented names
(`Spec.call`), in any environment in which those names have not been rebound (`Spec.Std`).  Argument
expressions are arbitrary; their evaluation is a hypothesis.
-/

namespace Dune.Props

open Spec

section

variable {W : Type} {P : Plat} {H : Host W} {L : Lib} {n : Nat} {env env1 env2 env3 : Env}
  {w w1 w2 w3 : W}

/-! ### C39 -/

/-- C39, negation of the expected property: `list@head` of a non-empty list is `None`, and of an
empty list the empty list. -/
theorem C39_head_none (hs : Std env) {x : Expr} {l : List Expr}
    (hx : evalN P H (stdB P L) n x env w = (.ok (.list l), env1, w1)) :
    evalN P H (stdB P L) (n + 1) (call c!"list" c!"head" [x]) env w =
      (.ok (match l with | [] => .list [] | _ :: _ => .none), env1, w1) := by
  lib hs, Init.listM
  cases l <;> brun [Builtins.headB, hx]

/-- C39, there is a list on which `list@head` does not return the first element. -/
theorem C39_head_refuted (hs : Std env) : ∃ (a : Expr) (l : List Expr),
    (evalN P H (stdB P L) (n + 1) (call c!"list" c!"head" [.list (a :: l)]) env w).1 ≠ .ok a := by
  refine ⟨.int (.lit 1), [], ?_⟩
  rw [C39_head_none hs (l := [.int (.lit 1)])
    (evalN_data (.list (n := 800) (by simp; exact .int _)) env w)]
  simp

example : (evalN Demo.plat Demo.host (stdB Demo.plat Demo.lib) 1
    (call c!"list" c!"head" [.list [.int (.lit 1), .int (.lit 2)]]) Demo.env []).1 = .ok .none := rfl

/-! ### C40 -/

/-- C40, `list@rev` reverses: the `i`-th element of the result is the `i`-th from the end. -/
theorem C40_rev (hs : Std env) {x : Expr} {l : List Expr}
    (hx : evalN P H (stdB P L) n x env w = (.ok (.list l), env1, w1)) :
    ∃ r, evalN P H (stdB P L) (n + 1) (call c!"list" c!"rev" [x]) env w =
        (.ok (.list r), env1, w1) ∧
      r.length = l.length ∧ ∀ i, i < l.length → r[i]? = l[l.length - 1 - i]? := by
  refine ⟨l.reverse, ?_, by simp, ?_⟩
  · lib hs, Init.listM
    brun [Builtins.revB, hx]
  · intro i hi
    rw [List.getElem?_reverse hi]

/-- C40, reversing twice gives back the list. -/
theorem C40_rev_rev (hs : Std env) {x : Expr} {l : List Expr}
    (hx : evalN P H (stdB P L) n x env w = (.ok (.list l), env1, w1)) :
    evalN P H (stdB P L) (n + 2)
        (call c!"list" c!"rev" [call c!"list" c!"rev" [x]]) env w = (.ok (.list l), env1, w1) := by
  have h1 : evalN P H (stdB P L) (n + 1) (call c!"list" c!"rev" [x]) env w =
      (.ok (.list l.reverse), env1, w1) := by
    lib hs, Init.listM
    brun [Builtins.revB, hx]
  lib hs, Init.listM
  brun [Builtins.revB, h1]

/-- C40, reversing a string twice gives back the string. -/
theorem C40_rev_rev_str (hs : Std env) {x : Expr} {s : Str}
    (hx : evalN P H (stdB P L) n x env w = (.ok (.str s), env1, w1)) :
    evalN P H (stdB P L) (n + 2)
        (call c!"string" c!"rev" [call c!"string" c!"rev" [x]]) env w =
      (.ok (.str s), env1, w1) := by
  have h1 : evalN P H (stdB P L) (n + 1) (call c!"string" c!"rev" [x]) env w =
      (.ok (.str s.reverse), env1, w1) := by
    lib hs, Init.stringM
    brun [Builtins.revB, hx]
  lib hs, Init.stringM
  brun [Builtins.revB, h1]

/-- `r` is `l` backwards, position by position. -/
def Backwards {α : Type} (l r : List α) : Prop :=
  r.length = l.length ∧ ∀ i, i < l.length → r[i]? = l[l.length - 1 - i]?

theorem backwards_reverse {α : Type} (l : List α) : Backwards l l.reverse :=
  ⟨by simp, fun _ hi => List.getElem?_reverse hi⟩

/-- C40, texts, names and bytes are reversed position by position, in both modules; what is none of these
and no list cannot be reversed. -/
theorem C40_rev_text (hs : Std env) {x v : Expr} {m : Str} (hm : m = c!"list" ∨ m = c!"string")
    (hx : evalN P H (stdB P L) n x env w = (.ok v, env1, w1)) :
    match v with
    | .list _ => True
    | .str s => ∃ r, Backwards s r ∧
        evalN P H (stdB P L) (n + 1) (call m c!"rev" [x]) env w = (.ok (.str r), env1, w1)
    | .symbol s => ∃ r, Backwards s r ∧
        evalN P H (stdB P L) (n + 1) (call m c!"rev" [x]) env w = (.ok (.symbol r), env1, w1)
    | .bytes b => ∃ r, Backwards b r ∧
        evalN P H (stdB P L) (n + 1) (call m c!"rev" [x]) env w = (.ok (.bytes r), env1, w1)
    | _ => ∃ msg, evalN P H (stdB P L) (n + 1) (call m c!"rev" [x]) env w =
        (.err (.customError msg), env1, w1) := by
  have h : evalN P H (stdB P L) (n + 1) (call m c!"rev" [x]) env w =
      (Builtins.revB [x]).run H (evalN P H (stdB P L) n) env w := by
    rcases hm with rfl | rfl
    · lib hs, Init.listM
      rfl
    · lib hs, Init.stringM
      rfl
  cases v <;> dsimp only <;> first
    | trivial
    | (refine ⟨_, backwards_reverse _, ?_⟩; rw [h]; brun [Builtins.revB, hx])
    | (rw [h]; brun [Builtins.revB, hx])

/-- C40, `list@tail` removes exactly the first element; of an empty list it is empty. -/
theorem C40_tail (hs : Std env) {x : Expr} {l : List Expr}
    (hx : evalN P H (stdB P L) n x env w = (.ok (.list l), env1, w1)) :
    ∃ r, evalN P H (stdB P L) (n + 1) (call c!"list" c!"tail" [x]) env w =
        (.ok (.list r), env1, w1) ∧ (l = [] → r = []) ∧ (∀ a t, l = a :: t → r = t) := by
  refine ⟨l.drop 1, ?_, by rintro rfl; rfl, by rintro a t rfl; rfl⟩
  lib hs, Init.listM
  brun [Builtins.tailB, hx]

/-- The part of a list a count refers to: counts beyond the end, and all negative counts, mean
everything. -/
def cutAt (i : I64) (l : List Expr) : Nat :=
  if i.val < 0 then l.length else min i.val.toNat l.length

theorem take_asUsize (i : I64) (l : List Expr) (hl : l.length ≤ 2 ^ 63) :
    l.take i.asUsize = l.take (cutAt i l) ∧ l.drop i.asUsize = l.drop (cutAt i l) := by
  unfold cutAt
  by_cases h : i.val < 0
  · have := asUsize_of_neg h
    rw [if_pos h, List.take_of_length_le (by omega), List.take_of_length_le (by omega),
      List.drop_of_length_le (by omega), List.drop_of_length_le (by omega)]
    exact ⟨rfl, rfl⟩
  · rw [if_neg h, asUsize_of_nonneg (by omega)]
    constructor
    · rw [← List.take_eq_take_min]
    · by_cases h' : i.val.toNat ≤ l.length
      · rw [Nat.min_eq_left h']
      · rw [Nat.min_eq_right (by omega), List.drop_of_length_le (by omega), List.drop_length]

/-- C40, `list@take k l` is the first part and `list@drop k l` the rest: together they are the list,
for every integer `k`; a negative count takes everything. -/
theorem C40_take_drop (hs : Std env) {k x : Expr} {i : I64} {l : List Expr}
    (hl : l.length ≤ 2 ^ 63)
    (hk : evalD P H (bodyRun P H (stdB P L) n) 800 k env w = (.ok (.int i), env1, w1))
    (hx : evalD P H (bodyRun P H (stdB P L) n) 799 x env1 w1 = (.ok (.list l), env2, w2)) :
    ∃ t d, evalN P H (stdB P L) (n + 1) (call c!"list" c!"take" [k, x]) env w =
        (.ok (.list t), env2, w2) ∧
      evalN P H (stdB P L) (n + 1) (call c!"list" c!"drop" [k, x]) env w =
        (.ok (.list d), env2, w2) ∧
      t ++ d = l ∧ t.length = cutAt i l := by
  have ht := evalD_mem (P := P) (H := H) (L := L) (n := n) (k := 798) (w := w) hs
    (m := c!"list") (f := c!"take") (tbl := Init.listM)
    (v := Builtins.curry2 (.builtin c!"take" .lTake [])) (by mem_tac) (by mem_tac)
  have hd := evalD_mem (P := P) (H := H) (L := L) (n := n) (k := 798) (w := w) hs
    (m := c!"list") (f := c!"drop") (tbl := Init.listM)
    (v := Builtins.curry2 (.builtin c!"drop" .lDrop [])) (by mem_tac) (by mem_tac)
  refine ⟨l.take (cutAt i l), l.drop (cutAt i l), ?_, ?_, by simp, ?_⟩
  · rw [evalN_curry2 ht hk hx]
    brun [Builtins.intListB, curryArgs, (take_asUsize i l hl).1]
  · rw [evalN_curry2 hd hk hx]
    brun [Builtins.intListB, curryArgs, (take_asUsize i l hl).2]
  · unfold cutAt
    split <;> simp

/-- C40, `list@split-at k l` is the pair of the first `k` elements and the others. -/
theorem C40_split_at (hs : Std env) {k x : Expr} {i : I64} {l : List Expr}
    (hl : l.length ≤ 2 ^ 63)
    (hk : evalN P H (stdB P L) n k env w = (.ok (.int i), env1, w1))
    (hx : evalN P H (stdB P L) n x env1 w1 = (.ok (.list l), env2, w2)) :
    ∃ t d, evalN P H (stdB P L) (n + 1) (call c!"list" c!"split-at" [k, x]) env w =
        (.ok (.list [.list t, .list d]), env2, w2) ∧
      t ++ d = l ∧ t.length = cutAt i l := by
  refine ⟨l.take (cutAt i l), l.drop (cutAt i l), ?_, by simp, ?_⟩
  · lib hs, Init.listM
    brun [Builtins.intListB, hk, hx, (take_asUsize i l hl).1, (take_asUsize i l hl).2]
  · unfold cutAt
    split <;> simp

/-- What cutting into pieces of `n` means: the pieces make up the list, all are full except a
non-empty last one. -/
inductive Chunks (n : Nat) : List Expr → List (List Expr) → Prop
  | nil : Chunks n [] []
  | last {l} : l ≠ [] → l.length < n → Chunks n l [l]
  | full {c l cs} : c.length = n → Chunks n l cs → Chunks n (c ++ l) (c :: cs)

theorem chunkLoop_chunks {n : Nat} (hn : 1 ≤ n) : ∀ (l cur : List Expr), cur.length < n →
    ∃ cs, Builtins.chunkLoop n l cur = cs.map .list ∧ Chunks n (cur ++ l) cs
  | [], cur, h => by
    by_cases hc : cur = []
    · subst hc
      exact ⟨[], rfl, .nil⟩
    · refine ⟨[cur], by simp [Builtins.chunkLoop, hc], ?_⟩
      rw [List.append_nil]
      exact .last hc h
  | x :: xs, cur, h => by
    simp only [Builtins.chunkLoop]
    by_cases hc : (cur ++ [x]).length = n
    · obtain ⟨cs, h1, h2⟩ := chunkLoop_chunks hn xs [] (by show 0 < n; omega)
      refine ⟨(cur ++ [x]) :: cs, by simp [hc, h1], ?_⟩
      have := Chunks.full hc h2
      simpa using this
    · obtain ⟨cs, h1, h2⟩ := chunkLoop_chunks hn xs (cur ++ [x])
        (by simp at hc ⊢; omega)
      refine ⟨cs, by rw [if_neg hc]; exact h1, by simpa using h2⟩

/-- C40, `list@chunk k l` for `k ≥ 1`. -/
theorem C40_chunk (hs : Std env) {k x : Expr} {i : I64} {l : List Expr} (hi : 1 ≤ i.val)
    (hk : evalN P H (stdB P L) n k env w = (.ok (.int i), env1, w1))
    (hx : evalN P H (stdB P L) n x env1 w1 = (.ok (.list l), env2, w2)) :
    ∃ cs : List (List Expr),
      evalN P H (stdB P L) (n + 1) (call c!"list" c!"chunk" [k, x]) env w =
        (.ok (.list (cs.map .list)), env2, w2) ∧
      cs.flatten = l ∧ (∀ c ∈ cs.dropLast, (c.length : Int) = i.val) ∧
      (∀ c ∈ cs, c ≠ [] ∧ (c.length : Int) ≤ i.val) := by
  have hu : i.asUsize = i.val.toNat := asUsize_of_nonneg (by omega)
  obtain ⟨cs, h1, h2⟩ := chunkLoop_chunks (n := i.val.toNat) (by omega) l [] (by simp; omega)
  refine ⟨cs, ?_, ?_, ?_, ?_⟩
  · lib hs, Init.listM
    brun [Builtins.chunkB, hk, hx, hu, h1]
  · clear h1 hx
    rw [List.nil_append] at h2
    induction h2 with
    | nil => rfl
    | last _ _ => simp
    | full _ _ ih => simp [ih]
  · clear h1 hx
    rw [List.nil_append] at h2
    induction h2 with
    | nil => simp
    | last _ _ => simp
    | @full c l cs hc h ih =>
      cases cs with
      | nil => simp
      | cons d ds =>
        intro e he
        simp only [List.dropLast_cons_cons, List.mem_cons] at he
        rcases he with rfl | he
        · omega
        · exact ih e he
  · clear h1 hx
    rw [List.nil_append] at h2
    induction h2 with
    | nil => simp
    | last h h' =>
      simp only [List.mem_singleton, forall_eq]
      exact ⟨h, by omega⟩
    | @full c l cs hc h ih =>
      intro e he
      simp only [List.mem_cons] at he
      rcases he with rfl | he
      · refine ⟨?_, by omega⟩
        rintro rfl
        simp at hc
        omega
      · exact ih e he

example : (evalN Demo.plat Demo.host (stdB Demo.plat Demo.lib) 1
    (call c!"list" c!"chunk" [.int (.lit 2), .list [.none, .bool true, .none]]) Demo.env []).1 =
    .ok (.list [.list [.none, .bool true], .list [.none]]) := rfl
example : (evalN Demo.plat Demo.host (stdB Demo.plat Demo.lib) 1
    (call c!"list" c!"take" [.int (.lit 1), .list [.none, .bool true, .none]]) Demo.env []).1 =
    .ok (.list [.none]) := rfl

/-! ### C41 -/

/-- C41: `list@nth` returns the element in range, counting from the end for negative indices, and
crashes for every other index. -/
theorem C41_nth (hs : Std env) {k x : Expr} {i : I64} {l : List Expr}
    (hk : evalN P H (stdB P L) n k env w = (.ok (.int i), env1, w1))
    (hx : evalN P H (stdB P L) n x env1 w1 = (.ok (.list l), env2, w2)) :
    ∃ o, evalN P H (stdB P L) (n + 1) (call c!"list" c!"nth" [k, x]) env w = (o, env2, w2) ∧
      (∀ j (hj : j < l.length), i.val = j → o = .ok l[j]) ∧
      (∀ j (hj : j < l.length), i.val = (j : Int) - l.length → o = .ok l[j]) ∧
      (i.val < -l.length ∨ (l.length : Int) ≤ i.val → o = .panic) := by
  by_cases h : i.val < 0
  · by_cases h' : (-i.val).toNat ≤ l.length
    · have hlt : l.length - (-i.val).toNat < l.length := by omega
      refine ⟨.ok l[l.length - (-i.val).toNat], ?_, ?_, ?_, ?_⟩
      · lib hs, Init.listM
        brun [Builtins.nthB, hk, hx, h, h', hlt, show -i.val ≤ l.length by omega]
      · intro j _ hj; omega
      · intro j hj hij
        congr 2
        omega
      · omega
    · refine ⟨.panic, ?_, ?_, ?_, fun _ => rfl⟩
      · lib hs, Init.listM
        brun [Builtins.nthB, hk, hx, h, h', show ¬ -i.val ≤ l.length by omega]
      · intro j _ hj; omega
      · intro j hj hij; omega
  · have hu : i.asUsize = i.val.toNat := asUsize_of_nonneg (by omega)
    by_cases h' : i.val.toNat < l.length
    · refine ⟨.ok l[i.val.toNat], ?_, ?_, ?_, ?_⟩
      · lib hs, Init.listM
        brun [Builtins.nthB, hk, hx, h, h', hu]
      · intro j hj hij
        congr 2
        omega
      · intro j hj hij; omega
      · omega
    · refine ⟨.panic, ?_, ?_, ?_, fun _ => rfl⟩
      · have : l[i.val.toNat]? = Option.none := by simp; omega
        lib hs, Init.listM
        brun [Builtins.nthB, hk, hx, h, hu, this]
      · intro j _ hj; omega
      · intro j hj hij; omega

example : (evalN Demo.plat Demo.host (stdB Demo.plat Demo.lib) 1
    (call c!"list" c!"nth" [.int ⟨-1, by decide, by decide⟩, .list [.none, .bool true]])
    Demo.env []).1 = .ok (.bool true) := rfl

/-! ### C42 -/

/-- The list of all integers from `a` to below `b`, ascending. -/
def IsRange (a b : Int) (r : List Expr) : Prop :=
  ∃ zs : List I64, r = zs.map .int ∧ zs.Pairwise (fun x y => x.val < y.val) ∧
    ∀ z : I64, z ∈ zs ↔ a ≤ z.val ∧ z.val < b

theorem intsFrom_isRange : ∀ (k : Nat) (a : Int), -9223372036854775808 ≤ a →
    a + k ≤ 9223372036854775808 → IsRange a (a + k) (Builtins.intsFrom a k)
  | 0, a, _, _ => ⟨[], rfl, .nil, by intro z; simp⟩
  | k + 1, a, h1, h2 => by
    obtain ⟨zs, e, hp, hm⟩ := intsFrom_isRange k (a + 1) (by omega) (by omega)
    have hw : (I64.wrap a).val = a := by
      simp only [I64.wrap]
      rw [Int.bmod_eq_of_le] <;> omega
    refine ⟨I64.wrap a :: zs, by simp [Builtins.intsFrom, e], ?_, ?_⟩
    · refine .cons ?_ hp
      intro z hz
      have := (hm z).mp hz
      omega
    · intro z
      rw [List.mem_cons, hm]
      have hz : z = I64.wrap a ↔ z.val = a := by
        constructor
        · rintro rfl; exact hw
        · intro h
          cases z with
          | mk v lo hi =>
            cases hh : I64.wrap a with
            | mk v' lo' hi' =>
              rw [hh] at hw
              simp only at h hw
              subst h
              subst hw
              rfl
      rw [hz]
      omega

/-- C42, `a to b` lists the integers from `a` up to but not including `b`. -/
theorem C42_to (hs : Std env) {x y : Expr} {a b : I64}
    (hx : evalN P H (stdB P L) n x env w = (.ok (.int a), env1, w1))
    (hy : evalN P H (stdB P L) n y env1 w1 = (.ok (.int b), env2, w2)) :
    ∃ r, evalN P H (stdB P L) (n + 1) (.apply (.symbol c!"to") [x, y]) env w =
      (.ok (.list r), env2, w2) ∧ IsRange a.val b.val r := by
  refine ⟨Builtins.intsFrom a.val (b.val - a.val).toNat, ?_, ?_⟩
  · rw [eval_top hs (by mem_tac)]
    brun [Builtins.toB, hx, hy]
  · have h1 := a.lo
    have h2 := b.hi
    have h3 := a.hi
    by_cases h : a.val ≤ b.val
    · have := intsFrom_isRange (b.val - a.val).toNat a.val h1 (by omega)
      rwa [show a.val + ((b.val - a.val).toNat : Int) = b.val by omega] at this
    · rw [show (b.val - a.val).toNat = 0 by omega]
      exact ⟨[], rfl, .nil, by intro z; simp; omega⟩

/-- C42, `list@range a b` lists the integers from `a` up to and including `b`. -/
theorem C42_range (hs : Std env) {x y : Expr} {a b : I64}
    (hx : evalN P H (stdB P L) n x env w = (.ok (.int a), env1, w1))
    (hy : evalN P H (stdB P L) n y env1 w1 = (.ok (.int b), env2, w2)) :
    ∃ r, evalN P H (stdB P L) (n + 1) (call c!"list" c!"range" [x, y]) env w =
      (.ok (.list r), env2, w2) ∧ IsRange a.val (b.val + 1) r := by
  refine ⟨Builtins.intsFrom a.val (b.val + 1 - a.val).toNat, ?_, ?_⟩
  · lib hs, Init.listM
    brun [Builtins.rangeB, hx, hy]
  · have h1 := a.lo
    have h2 := b.hi
    have h3 := a.hi
    by_cases h : a.val ≤ b.val
    · have := intsFrom_isRange (b.val + 1 - a.val).toNat a.val h1 (by omega)
      rwa [show a.val + ((b.val + 1 - a.val).toNat : Int) = b.val + 1 by omega] at this
    · rw [show (b.val + 1 - a.val).toNat = 0 by omega]
      exact ⟨[], rfl, .nil, by intro z; simp; omega⟩

example : (evalN Demo.plat Demo.host (stdB Demo.plat Demo.lib) 1
    (.apply (.symbol c!"to") [.int (.lit 1), .int (.lit 3)]) Demo.env []).1 =
    .ok (.list [.int (.lit 1), .int (.lit 2)]) := rfl

/-! ### C43 -/

theorem unzipLoop_bad {x : Expr} (h : ∀ u v, x ≠ .list [u, v]) (xs a b : List Expr) :
    Builtins.unzipLoop (x :: xs) a b = none := by
  unfold Builtins.unzipLoop
  split
  · rename_i h'; cases h'
  · rename_i h'
    injection h' with h'
    exact absurd h' (h _ _)
  · rfl

theorem unzipLoop_append : ∀ (l a b : List Expr),
    Builtins.unzipLoop l a b =
      (Builtins.unzipLoop l [] []).map fun p => (a ++ p.1, b ++ p.2)
  | [], a, b => by simp [Builtins.unzipLoop]
  | x :: xs, a, b => by
    by_cases h : ∃ u v, x = .list [u, v]
    · obtain ⟨u, v, rfl⟩ := h
      simp only [Builtins.unzipLoop]
      rw [unzipLoop_append xs (a ++ [u]), unzipLoop_append xs ([] ++ [u])]
      cases Builtins.unzipLoop xs [] [] <;> simp
    · have h' : ∀ u v, x ≠ .list [u, v] := fun u v hx => h ⟨u, v, hx⟩
      rw [unzipLoop_bad h', unzipLoop_bad h']
      rfl

theorem unzip_zip : ∀ a b : List Expr, Builtins.unzipLoop (Builtins.zipLists a b) [] [] =
    some (a.take (min a.length b.length), b.take (min a.length b.length))
  | [], b => by simp [Builtins.zipLists, Builtins.unzipLoop]
  | _ :: _, [] => by simp [Builtins.zipLists, Builtins.unzipLoop]
  | a :: as, b :: bs => by
    simp only [Builtins.zipLists, Builtins.unzipLoop]
    rw [unzipLoop_append, unzip_zip as bs]
    simp [Nat.succ_min_succ]

theorem zip_unzip : ∀ l : List Expr, (∀ e ∈ l, ∃ a b, e = .list [a, b]) →
    ∃ as bs, Builtins.unzipLoop l [] [] = some (as, bs) ∧ Builtins.zipLists as bs = l
  | [], _ => ⟨[], [], rfl, rfl⟩
  | e :: l, h => by
    obtain ⟨a, b, rfl⟩ := h e (by simp)
    obtain ⟨as, bs, h1, h2⟩ := zip_unzip l fun e he => h e (by simp [he])
    refine ⟨a :: as, b :: bs, ?_, ?_⟩
    · simp only [Builtins.unzipLoop]
      rw [unzipLoop_append, h1]
      simp
    · simp [Builtins.zipLists, h2]

theorem unzip_none : ∀ l : List Expr, (∃ e ∈ l, ∀ a b, e ≠ .list [a, b]) →
    Builtins.unzipLoop l [] [] = none
  | [], h => by simp at h
  | x :: l, ⟨e, he, hn⟩ => by
    by_cases h : ∃ u v, x = .list [u, v]
    · obtain ⟨u, v, rfl⟩ := h
      rw [List.mem_cons] at he
      rcases he with rfl | he
      · exact absurd rfl (hn u v)
      · simp only [Builtins.unzipLoop]
        rw [unzipLoop_append, unzip_none l ⟨e, he, hn⟩]
        rfl
    · exact unzipLoop_bad (fun u v hx => h ⟨u, v, hx⟩) _ _ _

/-- C43, unzipping a zipped pair of lists gives both lists, cut to the shorter length. -/
theorem C43_unzip_zip (hs : Std env) {x y : Expr} {a b : List Expr}
    (hx : evalN P H (stdB P L) n x env w = (.ok (.list a), env1, w1))
    (hy : evalN P H (stdB P L) n y env1 w1 = (.ok (.list b), env2, w2)) :
    evalN P H (stdB P L) (n + 2)
        (call c!"list" c!"unzip" [call c!"list" c!"zip" [x, y]]) env w =
      (.ok (.list [.list (a.take (min a.length b.length)),
        .list (b.take (min a.length b.length))]), env2, w2) := by
  have h1 : evalN P H (stdB P L) (n + 1) (call c!"list" c!"zip" [x, y]) env w =
      (.ok (.list (Builtins.zipLists a b)), env2, w2) := by
    lib hs, Init.listM
    brun [Builtins.zipB, hx, hy]
  lib hs, Init.listM
  brun [Builtins.unzipB, h1, unzip_zip]

/-- C43, a list of pairs is restored by zipping what unzipping gave. -/
theorem C43_zip_unzip (hs : Std env) {x : Expr} {l : List Expr}
    (hl : ∀ e ∈ l, ∃ a b, e = .list [a, b])
    (hx : evalN P H (stdB P L) n x env w = (.ok (.list l), env1, w1)) :
    ∃ as bs, evalN P H (stdB P L) (n + 1) (call c!"list" c!"unzip" [x]) env w =
        (.ok (.list [.list as, .list bs]), env1, w1) ∧
      evalN P H (stdB P L) (n + 1)
        (call c!"list" c!"zip" [.quote (.list as), .quote (.list bs)]) env w =
        (.ok (.list l), env, w) := by
  obtain ⟨as, bs, h1, h2⟩ := zip_unzip l hl
  refine ⟨as, bs, ?_, ?_⟩
  · lib hs, Init.listM
    brun [Builtins.unzipB, hx, h1]
  · have hq : ∀ e : Expr, evalN P H (stdB P L) n (.quote e) env w = (.ok e, env, w) := by
      intro e; cases n <;> rfl
    lib hs, Init.listM
    brun [Builtins.zipB, hq, h2]

/-- C43, a list with an element that is not a pair is rejected with an error. -/
theorem C43_unzip_rejects (hs : Std env) {x : Expr} {l : List Expr}
    (hl : ∃ e ∈ l, ∀ a b, e ≠ .list [a, b])
    (hx : evalN P H (stdB P L) n x env w = (.ok (.list l), env1, w1)) :
    ∃ msg, evalN P H (stdB P L) (n + 1) (call c!"list" c!"unzip" [x]) env w =
        (.err (.customError msg), env1, w1) := by
  refine ⟨c!"unzip requires a list of pairs as its argument", ?_⟩
  lib hs, Init.listM
  brun [Builtins.unzipB, hx, unzip_none l hl]

example : (evalN Demo.plat Demo.host (stdB Demo.plat Demo.lib) 2
    (call c!"list" c!"unzip" [call c!"list" c!"zip" [.list [.none, .bool true], .list [.none]]])
    Demo.env []).1 = .ok (.list [.list [.none], .list [.none]]) := rfl

/-! ### C44 -/

/-- One application of `f` to a value, as a step on variables and world. -/
def applyStep (P : Plat) (H : Host W) (L : Lib) (n : Nat) (f : Expr) (v : Expr) (s : Env × W) :
    Option Expr × (Env × W) :=
  match evalN P H (stdB P L) n (.apply f [v]) s.1 s.2 with
  | (.ok r, env, w) => (some r, env, w)
  | (_, env, w) => (none, env, w)

theorem applyStep_some {f v r : Expr} {s s' : Env × W} (h : applyStep P H L n f v s = (some r, s')) :
    evalN P H (stdB P L) n (.apply f [v]) s.1 s.2 = (.ok r, s'.1, s'.2) := by
  unfold applyStep at h
  split at h
  · rename_i h'
    injection h with h1 h2
    injection h1 with h1
    subst h1 h2
    exact h'
  · injection h with h1 h2
    cases h1

theorem mapLoop_iterates {f : Expr} {l vs : List Expr} {s s' : Env × W}
    (h : Iterates (applyStep P H L n f) l vs s s') :
    (Builtins.mapLoop f l).run H (evalN P H (stdB P L) n) s.1 s.2 = (.ok vs, s'.1, s'.2) := by
  induction h with
  | nil => rfl
  | cons h _ ih =>
    have := applyStep_some h
    simp only [Builtins.mapLoop]
    brun [this, ih]

theorem filterLoop_iterates {f : Expr} {l vs : List Expr} {s s' : Env × W}
    (h : Iterates (applyStep P H L n f) l vs s s') :
    (Builtins.filterLoop f l).run H (evalN P H (stdB P L) n) s.1 s.2 =
      (.ok (((l.zip vs).filter fun p => p.2.isTruthy).map (·.1)), s'.1, s'.2) := by
  induction h with
  | nil => rfl
  | cons h _ ih =>
    have := applyStep_some h
    simp only [Builtins.filterLoop]
    brun [this, ih, List.filter_cons]
    split <;> simp

/-- C44, `fn@map f l`: the function is applied to the elements once each, from left to right (its
effects happen in that order), and the results are listed in that order. -/
theorem C44_map (hs : Std env) {fe f x : Expr} {l vs : List Expr}
    (hx : evalN P H (stdB P L) n x env w = (.ok (.list l), env1, w1))
    (hf : evalN P H (stdB P L) n fe env1 w1 = (.ok f, env2, w2))
    (h : Iterates (applyStep P H L n f) l vs (env2, w2) (env3, w3)) :
    evalN P H (stdB P L) (n + 1) (call c!"fn" c!"map" [fe, x]) env w =
      (.ok (.list vs), env3, w3) := by
  have := mapLoop_iterates h
  lib hs, Init.fnM
  brun [Builtins.mapB, Builtins.countCheck, hx, hf, this]

/-- C44, `fn@filter f l` keeps the elements whose image is truthy, in order; the function is applied
to the elements once each, from left to right. -/
theorem C44_filter (hs : Std env) {fe f x : Expr} {l vs : List Expr}
    (hx : evalN P H (stdB P L) n x env w = (.ok (.list l), env1, w1))
    (hf : evalN P H (stdB P L) n fe env1 w1 = (.ok f, env2, w2))
    (h : Iterates (applyStep P H L n f) l vs (env2, w2) (env3, w3)) :
    evalN P H (stdB P L) (n + 1) (call c!"fn" c!"filter" [fe, x]) env w =
      (.ok (.list (((l.zip vs).filter fun p => Truthy p.2).map (·.1))), env3, w3) := by
  simp only [decide_truthy]
  have := filterLoop_iterates h
  lib hs, Init.fnM
  brun [Builtins.filterB, Builtins.countCheck, hx, hf, this]

/-- `f` computes `F` on the members of `l`, without effects. -/
def Computes (P : Plat) (H : Host W) (L : Lib) (n : Nat) (f : Expr) (F : Expr → Expr)
    (l : List Expr) : Prop :=
  ∀ v ∈ l, ∀ env w, evalN P H (stdB P L) n (.apply f [v]) env w = (.ok (F v), env, w)

theorem Computes.iterates {f : Expr} {F : Expr → Expr} : ∀ {l : List Expr},
    Computes P H L n f F l → ∀ s, Iterates (applyStep P H L n f) l (l.map F) s s
  | [], _, s => .nil s
  | v :: l, h, s => by
    refine .cons (s1 := s) ?_ (Computes.iterates (fun x hx => h x (by simp [hx])) s)
    simp only [applyStep, h v (by simp)]

/-- C44, map with a function that computes `F`: the list of images. -/
theorem C44_map_pure (hs : Std env) {fe f x : Expr} {F : Expr → Expr} {l : List Expr}
    (hx : evalN P H (stdB P L) n x env w = (.ok (.list l), env1, w1))
    (hf : evalN P H (stdB P L) n fe env1 w1 = (.ok f, env2, w2))
    (h : Computes P H L n f F l) :
    evalN P H (stdB P L) (n + 1) (call c!"fn" c!"map" [fe, x]) env w =
      (.ok (.list (l.map F)), env2, w2) :=
  C44_map hs hx hf (h.iterates _)

/-- C44, filter with a predicate that computes `F`: the elements with truthy image. -/
theorem C44_filter_pure (hs : Std env) {fe f x : Expr} {F : Expr → Expr} {l : List Expr}
    (hx : evalN P H (stdB P L) n x env w = (.ok (.list l), env1, w1))
    (hf : evalN P H (stdB P L) n fe env1 w1 = (.ok f, env2, w2))
    (h : Computes P H L n f F l) :
    evalN P H (stdB P L) (n + 1) (call c!"fn" c!"filter" [fe, x]) env w =
      (.ok (.list (l.filter fun v => Truthy (F v))), env2, w2) := by
  rw [C44_filter hs hx hf (h.iterates _)]
  simp only [decide_truthy]
  have : ∀ l : List Expr, ((l.zip (l.map F)).filter fun p => p.2.isTruthy).map (·.1) =
      l.filter fun v => (F v).isTruthy := by
    intro l
    induction l with
    | nil => rfl
    | cons a l ih =>
      simp only [List.map_cons, List.zip_cons_cons, List.filter_cons]
      split <;> simp [ih]
  rw [this]

/-- `f a x` computes `F a x` without effects, for accumulators in `S` and `x` in `l`, and stays in
`S`. -/
def Computes2 (P : Plat) (H : Host W) (L : Lib) (n : Nat) (f : Expr) (F : Expr → Expr → Expr)
    (S : Expr → Prop) (l : List Expr) : Prop :=
  ∀ a, S a → ∀ x ∈ l, S (F a x) ∧
    ∀ env w, evalN P H (stdB P L) n (.apply f [a, x]) env w = (.ok (F a x), env, w)

theorem foldLoop_left {f : Expr} {F : Expr → Expr → Expr} {S : Expr → Prop} :
    ∀ {l : List Expr} {a : Expr}, S a → Computes2 P H L n f F S l → ∀ env w,
      (Builtins.foldLoop (fun acc x => [acc, x]) f a l).run H (evalN P H (stdB P L) n) env w =
        (.ok (l.foldl F a), env, w)
  | [], a, _, _, env, w => rfl
  | x :: l, a, ha, h, env, w => by
    have h1 := h a ha x (by simp)
    have ih := foldLoop_left h1.1 (l := l) (fun b hb y hy => h b hb y (by simp [hy])) env w
    simp only [Builtins.foldLoop]
    brun [h1.2, ih]

theorem foldLoop_right {f : Expr} {F : Expr → Expr → Expr} {S : Expr → Prop} :
    ∀ {l : List Expr} {a : Expr}, S a →
      (∀ a, S a → ∀ x ∈ l, S (F x a) ∧
        ∀ env w, evalN P H (stdB P L) n (.apply f [x, a]) env w = (.ok (F x a), env, w)) →
      ∀ env w,
      (Builtins.foldLoop (fun acc x => [x, acc]) f a l).run H (evalN P H (stdB P L) n) env w =
        (.ok (l.foldl (fun a x => F x a) a), env, w)
  | [], a, _, _, env, w => rfl
  | x :: l, a, ha, h, env, w => by
    have h1 := h a ha x (by simp)
    have ih := foldLoop_right h1.1 (l := l) (fun b hb y hy => h b hb y (by simp [hy])) env w
    simp only [Builtins.foldLoop]
    brun [h1.2, ih]

/-- C44, `list@foldl f a l` is the left fold. -/
theorem C44_foldl (hs : Std env) {fe f ae a x : Expr} {F : Expr → Expr → Expr} {S : Expr → Prop}
    {l : List Expr}
    (hf : evalN P H (stdB P L) n fe env w = (.ok f, env1, w1))
    (ha : evalN P H (stdB P L) n ae env1 w1 = (.ok a, env2, w2))
    (hx : evalN P H (stdB P L) n x env2 w2 = (.ok (.list l), env3, w3))
    (hS : S a) (h : Computes2 P H L n f F S l) :
    evalN P H (stdB P L) (n + 1) (call c!"list" c!"foldl" [fe, ae, x]) env w =
      (.ok (l.foldl F a), env3, w3) := by
  have := foldLoop_left hS h env3 w3
  lib hs, Init.listM
  brun [Builtins.foldlB, hx, hf, ha, this]

/-- C44, `fn@reduce f a l` is the left fold; the list is evaluated first. -/
theorem C44_reduce (hs : Std env) {fe f ae a x : Expr} {F : Expr → Expr → Expr} {S : Expr → Prop}
    {l : List Expr}
    (hx : evalN P H (stdB P L) n x env w = (.ok (.list l), env1, w1))
    (hf : evalN P H (stdB P L) n fe env1 w1 = (.ok f, env2, w2))
    (ha : evalN P H (stdB P L) n ae env2 w2 = (.ok a, env3, w3))
    (hS : S a) (h : Computes2 P H L n f F S l) :
    evalN P H (stdB P L) (n + 1) (call c!"fn" c!"reduce" [fe, ae, x]) env w =
      (.ok (l.foldl F a), env3, w3) := by
  have := foldLoop_left hS h env3 w3
  lib hs, Init.fnM
  brun [Builtins.reduceB, Builtins.countCheck, hx, hf, ha, this]

/-- C44, `list@foldr f a l` is the right fold. -/
theorem C44_foldr (hs : Std env) {fe f ae a x : Expr} {F : Expr → Expr → Expr} {S : Expr → Prop}
    {l : List Expr}
    (hf : evalN P H (stdB P L) n fe env w = (.ok f, env1, w1))
    (ha : evalN P H (stdB P L) n ae env1 w1 = (.ok a, env2, w2))
    (hx : evalN P H (stdB P L) n x env2 w2 = (.ok (.list l), env3, w3))
    (hS : S a)
    (h : ∀ a, S a → ∀ x ∈ l, S (F x a) ∧
      ∀ env w, evalN P H (stdB P L) n (.apply f [x, a]) env w = (.ok (F x a), env, w)) :
    evalN P H (stdB P L) (n + 1) (call c!"list" c!"foldr" [fe, ae, x]) env w =
      (.ok (l.foldr F a), env3, w3) := by
  have := foldLoop_right (l := l.reverse) (F := F) hS
    (fun a ha x hx => h a ha x (by simpa using hx)) env3 w3
  rw [List.foldl_reverse] at this
  lib hs, Init.listM
  brun [Builtins.foldrB, hx, hf, ha, this]

end

section

/-- `x -> x + 1` -/
private def inc : Expr :=
  .lambda c!"x" (.apply (.symbol c!"+") [.symbol c!"x", .int (.lit 1)]) [] []

example : (evalN Demo.plat Demo.host (stdB Demo.plat Demo.lib) 2
    (call c!"fn" c!"map" [inc, .list [.int (.lit 1), .int (.lit 2)]]) Demo.env []).1 =
    .ok (.list [.int (.lit 2), .int (.lit 3)]) := rfl
example : (evalN Demo.plat Demo.host (stdB Demo.plat Demo.lib) 2
    (call c!"list" c!"foldr" [.symbol c!"-", .int (.lit 0),
      .list [.int (.lit 5), .int (.lit 2)]]) Demo.env []).1 = .ok (.int (.lit 3)) := rfl
example : (evalN Demo.plat Demo.host (stdB Demo.plat Demo.lib) 2
    (call c!"list" c!"foldl" [.symbol c!"-", .int (.lit 9),
      .list [.int (.lit 5), .int (.lit 2)]]) Demo.env []).1 = .ok (.int (.lit 2)) := rfl

/-- The hypotheses of the fold theorems hold for string concatenation. -/
example (l : List Expr) (hl : ∀ x ∈ l, ∃ s, x = .str s) :
    Computes2 Demo.plat Demo.host Demo.lib 1 (.builtin c!"+" .add [])
      (fun a x => match a, x with | .str s, .str t => .str (s ++ t) | _, _ => .none)
      (fun a => ∃ s, a = .str s) l := by
  rintro _ ⟨s, rfl⟩ x hx
  obtain ⟨t, rfl⟩ := hl x hx
  refine ⟨⟨_, rfl⟩, ?_⟩
  intro env w
  brun [Builtins.addB, Builtins.opLoop, Expr.add]

end

/-! ### Instances: the hypotheses can be met -/

section

private abbrev l3 : Expr := .list [.none, .bool true, .str c!"é"]

example := C39_head_none (P := Demo.plat) (H := Demo.host) (L := Demo.lib) (n := 0) (w := [])
  demo_std (x := l3) rfl

example := C40_rev (P := Demo.plat) (H := Demo.host) (L := Demo.lib) (n := 0) (w := [])
  demo_std (x := l3) rfl

example := C40_rev_rev (P := Demo.plat) (H := Demo.host) (L := Demo.lib) (n := 0) (w := [])
  demo_std (x := l3) rfl

example := C40_rev_rev_str (P := Demo.plat) (H := Demo.host) (L := Demo.lib) (n := 0) (w := [])
  demo_std (x := .str c!"aé") rfl

example := C40_rev_text (P := Demo.plat) (H := Demo.host) (L := Demo.lib) (n := 0) (w := [])
  demo_std (m := c!"string") (x := .str c!"aé") (.inr rfl) rfl

example := C40_tail (P := Demo.plat) (H := Demo.host) (L := Demo.lib) (n := 0) (w := [])
  demo_std (x := l3) rfl

example := C40_take_drop (P := Demo.plat) (H := Demo.host) (L := Demo.lib) (n := 0) (w := [])
  demo_std (k := .int (.lit 2)) (x := l3) (i := .lit 2)
  (l := [.none, .bool true, .str c!"é"]) (by decide) rfl rfl

example := C40_split_at (P := Demo.plat) (H := Demo.host) (L := Demo.lib) (n := 0) (w := [])
  demo_std (k := .int .min) (x := l3) (i := .min)
  (l := [.none, .bool true, .str c!"é"]) (by decide) rfl rfl

example := C40_chunk (P := Demo.plat) (H := Demo.host) (L := Demo.lib) (n := 0) (w := [])
  demo_std (k := .int (.lit 2)) (x := l3) (i := .lit 2) (by decide) rfl rfl

example := C42_to (P := Demo.plat) (H := Demo.host) (L := Demo.lib) (n := 0) (w := [])
  demo_std (x := .int .min) (y := .int ⟨-9223372036854775806, by decide, by decide⟩) rfl rfl

example := C43_unzip_zip (P := Demo.plat) (H := Demo.host) (L := Demo.lib) (n := 0) (w := [])
  demo_std (x := l3) (y := .list [.bool false, .none]) rfl rfl

example := C43_zip_unzip (P := Demo.plat) (H := Demo.host) (L := Demo.lib) (n := 0) (w := [])
  demo_std (x := .list [.list [.none, .bool true]]) (l := [.list [.none, .bool true]])
  (by simp) rfl

example := C43_unzip_rejects (P := Demo.plat) (H := Demo.host) (L := Demo.lib) (n := 0) (w := [])
  demo_std (x := .list [.list [.none, .bool true], .none])
  (l := [.list [.none, .bool true], .none]) ⟨.none, by simp, by simp⟩ rfl

end

example := C44_map_pure (P := Demo.plat) (H := Demo.host) (L := Demo.lib) (n := 0) (w := [])
  demo_std (fe := .lambda c!"x" (.list [.symbol c!"x"]) [] [])
  (f := .lambda c!"x" (.list [.symbol c!"x"]) [(c!"CWD", .str c!"/"), (c!"x", .none)] [])
  (F := fun v => .list [v]) (x := .list [.int (.lit 1), .str c!"a"]) rfl rfl (by
    intro v hv env w
    simp at hv
    rcases hv with rfl | rfl <;> rfl)

example := C44_filter_pure (P := Demo.plat) (H := Demo.host) (L := Demo.lib) (n := 0) (w := [])
  demo_std (fe := .lambda c!"x" (.symbol c!"x") [] [])
  (f := .lambda c!"x" (.symbol c!"x") [(c!"CWD", .str c!"/"), (c!"x", .none)] [])
  (F := fun v => v) (x := .list [.int (.lit 1), .str []]) rfl rfl (by
    intro v hv env w
    simp at hv
    rcases hv with rfl | rfl <;> rfl)

example := C44_foldl (P := Demo.plat) (H := Demo.host) (L := Demo.lib) (n := 0) (w := [])
  demo_std (fe := .lambda c!"x" (.lambda c!"y" (.symbol c!"y") [] []) [] [])
  (f := .lambda c!"x" (.lambda c!"y" (.symbol c!"y") [] []) [(c!"CWD", .str c!"/"), (c!"x", .none)] [])
  (ae := .int (.lit 0)) (F := fun _ v => v) (S := fun v => v = .int (.lit 0) ∨ v = .int (.lit 1) ∨ v = .str [])
  (x := .list [.int (.lit 1), .str []]) rfl rfl rfl (.inl rfl) (by
    intro a ha v hv
    simp at hv
    refine ⟨.inr hv, fun env w => ?_⟩
    rcases hv with rfl | rfl <;> rcases ha with rfl | rfl | rfl <;> rfl)

end Dune.Props
