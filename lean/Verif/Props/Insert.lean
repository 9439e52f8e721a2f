import Verif.Proof.Lib
import Verif.Proof.Lex
import Verif.Proof.Scan
import Verif.Props.Lists
import Verif.Props.Dict

/-! C70: building lists and texts from parts, and their lengths. -/

namespace Dune.Props

open Spec

section

variable {W : Type} {P : Plat} {H : Host W} {L : Lib} {n : Nat} {env env1 env2 env3 : Env}
  {w w1 w2 w3 : W}

open Builtins

/-- C70, `list@cons x l` puts `x` in front of `l`; the list is evaluated before the element. -/
theorem C70_cons (hs : Std env) {a b v : Expr} {l : List Expr}
    (hb : evalN P H (stdB P L) n b env w = (.ok (.list l), env1, w1))
    (ha : evalN P H (stdB P L) n a env1 w1 = (.ok v, env2, w2)) :
    evalN P H (stdB P L) (n + 1) (call c!"list" c!"cons" [a, b]) env w =
      (.ok (.list ([v] ++ l)), env2, w2) := by
  lib hs, Init.listM
  brun [Builtins.consB, ha, hb]

/-- C70, `list@append l x` puts `x` behind `l`. -/
theorem C70_append (hs : Std env) {a b v : Expr} {l : List Expr}
    (ha : evalN P H (stdB P L) n a env w = (.ok (.list l), env1, w1))
    (hb : evalN P H (stdB P L) n b env1 w1 = (.ok v, env2, w2)) :
    evalN P H (stdB P L) (n + 1) (call c!"list" c!"append" [a, b]) env w =
      (.ok (.list (l ++ [v])), env2, w2) := by
  lib hs, Init.listM
  brun [Builtins.appendB, ha, hb]

/-- C70, taking the tail undoes `cons`. -/
theorem C70_tail_cons (hs : Std env) {a b v : Expr} {l : List Expr}
    (hb : evalN P H (stdB P L) n b env w = (.ok (.list l), env1, w1))
    (ha : evalN P H (stdB P L) n a env1 w1 = (.ok v, env2, w2)) :
    evalN P H (stdB P L) (n + 2) (call c!"list" c!"tail" [call c!"list" c!"cons" [a, b]]) env w =
      (.ok (.list l), env2, w2) := by
  have h := C70_cons (P := P) (L := L) (H := H) hs hb ha
  lib hs, Init.listM
  brun [Builtins.tailB, h]

/-- C70, reversing turns `cons` into `append`. -/
theorem C70_rev_cons (hs : Std env) {a b v : Expr} {l : List Expr}
    (hb : evalN P H (stdB P L) n b env w = (.ok (.list l), env1, w1))
    (ha : evalN P H (stdB P L) n a env1 w1 = (.ok v, env2, w2)) :
    evalN P H (stdB P L) (n + 2) (call c!"list" c!"rev" [call c!"list" c!"cons" [a, b]]) env w =
      (.ok (.list (l.reverse ++ [v])), env2, w2) := by
  have h := C70_cons (P := P) (L := L) (H := H) hs hb ha
  lib hs, Init.listM
  brun [Builtins.revB, h]

/-! ### Lengths -/

theorem wrap_small {z : Int} (h0 : 0 ≤ z) (h : z < 2 ^ 63) : (I64.wrap z).val = z := by
  simp only [I64.wrap]
  rw [Int.bmod_eq_of_le (by omega) (by omega)]

/-- C70, the length of a list is its number of elements, under both names. -/
theorem C70_len_list (hs : Std env) {a : Expr} {l : List Expr} (hl : l.length < 2 ^ 63)
    (ha : evalN P H (stdB P L) n a env w = (.ok (.list l), env1, w1)) :
    ∃ k : I64, k.val = l.length ∧
      evalN P H (stdB P L) (n + 1) (call c!"list" c!"len" [a]) env w = (.ok (.int k), env1, w1) ∧
      evalN P H (stdB P L) (n + 1) (.apply (.symbol c!"len") [a]) env w =
        (.ok (.int k), env1, w1) := by
  refine ⟨I64.wrap l.length, wrap_small (by omega) (by omega), ?_, ?_⟩
  · lib hs, Init.listM
    brun [Builtins.listLenB, ha, Builtins.lenInt]
  · rw [eval_top hs (nm := c!"len") (id := .len) (hlp := []) (by mem_tac)]
    brun [Builtins.lenB, ha, Builtins.lenInt]

/-- ASCII text. -/
def Ascii (s : Str) : Prop := ∀ c ∈ s, c.toNat < 128

theorem size_ascii {c : Char} : c.utf8Size = 1 ↔ c.toNat < 128 := by
  unfold Char.utf8Size Char.toNat
  have h : c.val ≤ 0x7f ↔ c.val.toNat < 128 := by
    rw [UInt32.le_iff_toNat_le]
    show c.val.toNat ≤ 127 ↔ _
    omega
  dsimp only
  split
  · rename_i h1
    exact ⟨fun _ => h.mp h1, fun _ => rfl⟩
  · rename_i h1
    refine ⟨fun h2 => ?_, fun h2 => absurd (h.mpr h2) h1⟩
    split at h2
    · omega
    · split at h2 <;> omega

theorem size_pos (c : Char) : 1 ≤ c.utf8Size := Char.utf8Size_pos c

theorem length_le_utf8Len : ∀ s : Str, s.length ≤ utf8Len s
  | [] => Nat.le_refl _
  | c :: s => by
    have := length_le_utf8Len s
    have := size_pos c
    rw [Lex.utf8Len_cons, List.length_cons]
    omega

theorem length_eq_utf8Len : ∀ s : Str, utf8Len s = s.length ↔ Ascii s
  | [] => by simp [Ascii, utf8Len]
  | c :: s => by
    have h1 := length_le_utf8Len s
    have h2 := size_pos c
    have h3 := length_eq_utf8Len s
    rw [Lex.utf8Len_cons, List.length_cons]
    constructor
    · intro h d hd
      rw [List.mem_cons] at hd
      rcases hd with rfl | hd
      · exact size_ascii.mp (by omega)
      · exact h3.mp (by omega) d hd
    · intro h
      have h4 := size_ascii.mpr (h c (by simp))
      have h5 := h3.mpr fun d hd => h d (by simp [hd])
      omega

theorem encode_length (s : Str) : (utf8Encode s).length = utf8Len s := by
  induction s with
  | nil => rfl
  | cons c s ih =>
    have : (utf8Encode (c :: s)).length = c.utf8Size + (utf8Encode s).length := by
      simp [utf8Encode, String.length_utf8EncodeChar]
    rw [this, Lex.utf8Len_cons, ih]

/-- C70, `len s` counts the characters of a text, `string@len s` and `dict@len s` its bytes; they
agree exactly on ASCII texts, and otherwise `string@len` is larger. -/
theorem C70_len_text (hs : Std env) {a : Expr} {s : Str} (hl : (utf8Encode s).length < 2 ^ 63)
    (ha : evalN P H (stdB P L) n a env w = (.ok (.str s), env1, w1)) :
    ∃ k b : I64, k.val = s.length ∧ b.val = (utf8Encode s).length ∧
      evalN P H (stdB P L) (n + 1) (.apply (.symbol c!"len") [a]) env w =
        (.ok (.int k), env1, w1) ∧
      evalN P H (stdB P L) (n + 1) (call c!"string" c!"len" [a]) env w =
        (.ok (.int b), env1, w1) ∧
      evalN P H (stdB P L) (n + 1) (call c!"dict" c!"len" [a]) env w =
        (.ok (.int b), env1, w1) ∧
      (k = b ↔ Ascii s) ∧ k.val ≤ b.val := by
  have he := encode_length s
  have hle := length_le_utf8Len s
  have hk := wrap_small (z := s.length) (by omega) (by omega)
  have hb := wrap_small (z := utf8Len s) (by omega) (by omega)
  refine ⟨I64.wrap s.length, I64.wrap (utf8Len s), hk, by rw [hb, he], ?_, ?_, ?_, ?_, ?_⟩
  · rw [eval_top hs (nm := c!"len") (id := .len) (hlp := []) (by mem_tac)]
    brun [Builtins.lenB, ha, Builtins.lenInt]
  · lib hs, Init.stringM
    brun [Builtins.listLenB, ha, Builtins.lenInt]
  · lib hs, Init.dictM
    brun [Builtins.dLenB, ha, Builtins.lenInt]
  · rw [← length_eq_utf8Len]
    constructor
    · intro h
      have := congrArg I64.val h
      omega
    · intro h
      rw [h]
  · omega

/-! ### `insert` -/

/-- C70, `insert l i v` with `0 ≤ i ≤ length` gives the list in which `v` stands at position `i` and
the other elements keep their order. -/
theorem C70_insert_list (hs : Std env) {a b c v : Expr} {xs ys : List Expr} {i : I64}
    (hi : i.val = xs.length)
    (ha : evalN P H (stdB P L) n a env w = (.ok (.list (xs ++ ys)), env1, w1))
    (hb : evalN P H (stdB P L) n b env1 w1 = (.ok (.int i), env2, w2))
    (hc : evalN P H (stdB P L) n c env2 w2 = (.ok v, env3, w3)) :
    evalN P H (stdB P L) (n + 1) (.apply (.symbol c!"insert") [a, b, c]) env w =
      (.ok (.list (xs ++ [v] ++ ys)), env3, w3) := by
  have hu : i.asUsize = xs.length := by
    have := i.hi
    simp only [I64.asUsize]
    omega
  rw [eval_top hs (nm := c!"insert") (id := .insert) (hlp := []) (by mem_tac)]
  brun [Builtins.insertB, ha, hb, hc, hu]

/-- C70, every other index is an error, after all three arguments were evaluated. -/
theorem C70_insert_list_bad (hs : Std env) {a b c v : Expr} {l : List Expr} {i : I64}
    (hl : l.length < 2 ^ 63) (hi : i.val < 0 ∨ l.length < i.val)
    (ha : evalN P H (stdB P L) n a env w = (.ok (.list l), env1, w1))
    (hb : evalN P H (stdB P L) n b env1 w1 = (.ok (.int i), env2, w2))
    (hc : evalN P H (stdB P L) n c env2 w2 = (.ok v, env3, w3)) :
    ∃ m, evalN P H (stdB P L) (n + 1) (.apply (.symbol c!"insert") [a, b, c]) env w =
      (.err (.customError m), env3, w3) := by
  have hu : ¬ i.asUsize ≤ l.length := by
    have := i.lo
    have := i.hi
    simp only [I64.asUsize]
    omega
  refine ⟨c!"index " ++ display P (.int i) ++ c!" out of bounds for " ++ debug P (.list l), ?_⟩
  rw [eval_top hs (nm := c!"insert") (id := .insert) (hlp := []) (by mem_tac)]
  brun [Builtins.insertB, ha, hb, hc, hu]

theorem splitBytes_append : ∀ x y : Str, splitBytes (x ++ y) (utf8Len x) = some (x, y)
  | [], [] => rfl
  | [], c :: cs => rfl
  | c :: x, y => by
    have h1 := size_pos c
    obtain ⟨k, hk⟩ : ∃ k, utf8Len (c :: x) = k + 1 := ⟨utf8Len (c :: x) - 1, by
      rw [Lex.utf8Len_cons]; omega⟩
    have h2 : c.utf8Size + utf8Len x = k + 1 := by rw [← Lex.utf8Len_cons, hk]
    rw [hk, List.cons_append, splitBytes, if_pos (by omega)]
    have : k + 1 - c.utf8Size = utf8Len x := by omega
    rw [this, splitBytes_append x y]

theorem splitBytes_some : ∀ {s : Str} {k : Nat} {x y : Str}, splitBytes s k = some (x, y) →
    s = x ++ y ∧ utf8Len x = k
  | [], 0, x, y, h => by
    cases h
    exact ⟨rfl, rfl⟩
  | [], k + 1, x, y, h => by simp [splitBytes] at h
  | c :: cs, 0, x, y, h => by
    simp only [splitBytes, Option.some.injEq, Prod.mk.injEq] at h
    obtain ⟨rfl, rfl⟩ := h
    exact ⟨rfl, rfl⟩
  | c :: cs, k + 1, x, y, h => by
    simp only [splitBytes] at h
    split at h
    · rename_i hle
      cases hr : splitBytes cs (k + 1 - c.utf8Size) with
      | none => simp [hr] at h
      | some p =>
        obtain ⟨x', y'⟩ := p
        simp only [hr, Option.some.injEq, Prod.mk.injEq] at h
        obtain ⟨rfl, rfl⟩ := h
        obtain ⟨h1, h2⟩ := splitBytes_some hr
        refine ⟨by rw [h1]; rfl, ?_⟩
        rw [Lex.utf8Len_cons, h2]
        omega
    · cases h

/-- C70, inserting into a text: the index counts bytes, and the value is inserted as it prints. -/
theorem C70_insert_text (hs : Std env) {a b c v : Expr} {x y : Str} {i : I64}
    (hi : i.val = (utf8Encode x).length)
    (ha : evalN P H (stdB P L) n a env w = (.ok (.str (x ++ y)), env1, w1))
    (hb : evalN P H (stdB P L) n b env1 w1 = (.ok (.int i), env2, w2))
    (hc : evalN P H (stdB P L) n c env2 w2 = (.ok v, env3, w3)) :
    evalN P H (stdB P L) (n + 1) (.apply (.symbol c!"insert") [a, b, c]) env w =
      (.ok (.str (x ++ display P v ++ y)), env3, w3) := by
  have he := encode_length
  have hu : i.asUsize = utf8Len x := by
    have := i.hi
    rw [he] at hi
    simp only [I64.asUsize]
    omega
  have hle : utf8Len x ≤ utf8Len (x ++ y) := by rw [utf8Len_append]; omega
  rw [eval_top hs (nm := c!"insert") (id := .insert) (hlp := []) (by mem_tac)]
  brun [Builtins.insertB, ha, hb, hc, hu, hle, splitBytes_append]

/-- C70, an index inside a character crashes the shell. -/
theorem C70_insert_text_crash (hs : Std env) {a b c v : Expr} {s : Str} {i : I64}
    (h0 : 0 ≤ i.val) (h1 : i.val ≤ utf8Len s)
    (hi : ∀ x y, s = x ++ y → i.val ≠ utf8Len x)
    (ha : evalN P H (stdB P L) n a env w = (.ok (.str s), env1, w1))
    (hb : evalN P H (stdB P L) n b env1 w1 = (.ok (.int i), env2, w2))
    (hc : evalN P H (stdB P L) n c env2 w2 = (.ok v, env3, w3)) :
    evalN P H (stdB P L) (n + 1) (.apply (.symbol c!"insert") [a, b, c]) env w =
      (.panic, env3, w3) := by
  have hu : (i.asUsize : Int) = i.val := by
    have := i.hi
    simp only [I64.asUsize]
    omega
  have hle : i.asUsize ≤ utf8Len s := by omega
  have hn : splitBytes s i.asUsize = none := by
    cases hr : splitBytes s i.asUsize with
    | none => rfl
    | some p =>
      obtain ⟨e1, e2⟩ := splitBytes_some hr
      exact absurd (by rw [← hu, e2]) (hi _ _ e1)
  rw [eval_top hs (nm := c!"insert") (id := .insert) (hlp := []) (by mem_tac)]
  brun [Builtins.insertB, ha, hb, hc, hle, hn]

/-- C70, beyond the end of a text (or before its start) the index is an error. -/
theorem C70_insert_text_bad (hs : Std env) {a b c v : Expr} {s : Str} {i : I64}
    (hl : utf8Len s < 2 ^ 63) (hi : i.val < 0 ∨ utf8Len s < i.val)
    (ha : evalN P H (stdB P L) n a env w = (.ok (.str s), env1, w1))
    (hb : evalN P H (stdB P L) n b env1 w1 = (.ok (.int i), env2, w2))
    (hc : evalN P H (stdB P L) n c env2 w2 = (.ok v, env3, w3)) :
    ∃ m, evalN P H (stdB P L) (n + 1) (.apply (.symbol c!"insert") [a, b, c]) env w =
      (.err (.customError m), env3, w3) := by
  have hu : ¬ i.asUsize ≤ utf8Len s := by
    have := i.lo
    have := i.hi
    simp only [I64.asUsize]
    omega
  rw [eval_top hs (nm := c!"insert") (id := .insert) (hlp := []) (by mem_tac)]
  exact ⟨_, by brun [Builtins.insertB, ha, hb, hc, hu]; rfl⟩

/-- C70, inserting into a map sets that key and no other. -/
theorem C70_insert_map (hs : Std env) {a b c v : Expr} {k : Str} {m : BMap Expr}
    (hm : BMap.Sorted m)
    (ha : evalN P H (stdB P L) n a env w = (.ok (.map m), env1, w1))
    (hb : evalN P H (stdB P L) n b env1 w1 = (.ok (.str k), env2, w2))
    (hc : evalN P H (stdB P L) n c env2 w2 = (.ok v, env3, w3)) :
    ∃ m', evalN P H (stdB P L) (n + 1) (.apply (.symbol c!"insert") [a, b, c]) env w =
        (.ok (.map m'), env3, w3) ∧ BMap.Sorted m' ∧
      ∀ x u, (x, u) ∈ m' ↔ (x = k ∧ u = v) ∨ (x ≠ k ∧ (x, u) ∈ m) := by
  refine ⟨BMap.insert m k v, ?_, hm.insert _ _, ?_⟩
  · rw [eval_top hs (nm := c!"insert") (id := .insert) (hlp := []) (by mem_tac)]
    brun [Builtins.insertB, ha, hb, hc]
  · intro x u
    rw [mem_iff_get? (hm.insert _ _), mem_iff_get? hm, BMap.get?_insert]
    by_cases h : x = k
    · simp [h, eq_comm]
    · simp [h, Ne.symm h]

/-- C70, `string@split-at s i` cuts a text after `i` bytes. -/
theorem C70_split_at_text (hs : Std env) {a b : Expr} {x y : Str} {i : I64}
    (hi : i.val = utf8Len x)
    (ha : evalN P H (stdB P L) n a env w = (.ok (.str (x ++ y)), env1, w1))
    (hb : evalN P H (stdB P L) n b env1 w1 = (.ok (.int i), env2, w2)) :
    evalN P H (stdB P L) (n + 1) (call c!"string" c!"split-at" [a, b]) env w =
      (.ok (.list [.str x, .str y]), env2, w2) := by
  have hu : i.asUsize = utf8Len x := by
    have := i.hi
    simp only [I64.asUsize]
    omega
  lib hs, Init.stringM
  brun [Builtins.strSplitAtB, ha, hb, strOrSym, hu, splitBytes_append]

/-- C70, past the end, before the start, or inside a character it crashes the shell. -/
theorem C70_split_at_crash (hs : Std env) {a b : Expr} {s : Str} {i : I64}
    (hl : utf8Len s < 2 ^ 63) (hi : ∀ x y, s = x ++ y → i.val ≠ utf8Len x)
    (ha : evalN P H (stdB P L) n a env w = (.ok (.str s), env1, w1))
    (hb : evalN P H (stdB P L) n b env1 w1 = (.ok (.int i), env2, w2)) :
    evalN P H (stdB P L) (n + 1) (call c!"string" c!"split-at" [a, b]) env w =
      (.panic, env2, w2) := by
  have hn : splitBytes s i.asUsize = none := by
    cases hr : splitBytes s i.asUsize with
    | none => rfl
    | some p =>
      obtain ⟨e1, e2⟩ := splitBytes_some hr
      refine absurd ?_ (hi _ _ e1)
      have h3 : utf8Len p.1 ≤ utf8Len s := by rw [e1, utf8Len_append]; omega
      have := i.lo
      have := i.hi
      simp only [I64.asUsize] at e2
      omega
  lib hs, Init.stringM
  brun [Builtins.strSplitAtB, ha, hb, strOrSym, hn]

example : (evalN Demo.plat Demo.host (stdB Demo.plat Demo.lib) 2 (.apply (.symbol c!"insert")
    [.list [.int (.lit 1), .int (.lit 2)], .int (.lit 1), .str c!"x"]) Demo.env []).1 =
    .ok (.list [.int (.lit 1), .str c!"x", .int (.lit 2)]) := rfl
example : (evalN Demo.plat Demo.host (stdB Demo.plat Demo.lib) 2 (.apply (.symbol c!"insert")
    [.str c!"héy", .int (.lit 3), .int (.lit 7)]) Demo.env []).1 = .ok (.str c!"hé7y") := rfl
example : (evalN Demo.plat Demo.host (stdB Demo.plat Demo.lib) 2 (.apply (.symbol c!"insert")
    [.str c!"héy", .int (.lit 2), .int (.lit 7)]) Demo.env []).1 = .panic := rfl
example : (evalN Demo.plat Demo.host (stdB Demo.plat Demo.lib) 2 (.apply (.symbol c!"insert")
    [.map [(c!"a", .int (.lit 1)), (c!"c", .int (.lit 3))], .str c!"b", .int (.lit 2)])
    Demo.env []).1 =
    .ok (.map [(c!"a", .int (.lit 1)), (c!"b", .int (.lit 2)), (c!"c", .int (.lit 3))]) := rfl
example : (evalN Demo.plat Demo.host (stdB Demo.plat Demo.lib) 2 (.apply (.symbol c!"len")
    [.str c!"héy"]) Demo.env []).1 = .ok (.int (.lit 3)) ∧
    (evalN Demo.plat Demo.host (stdB Demo.plat Demo.lib) 2 (call c!"string" c!"len"
    [.str c!"héy"]) Demo.env []).1 = .ok (Builtins.lenInt 4) := ⟨rfl, rfl⟩
example : (evalN Demo.plat Demo.host (stdB Demo.plat Demo.lib) 2 (call c!"list" c!"cons"
    [.int (.lit 1), .list [.int (.lit 2)]]) Demo.env []).1 =
    .ok (.list [.int (.lit 1), .int (.lit 2)]) := rfl
example : (evalN Demo.plat Demo.host (stdB Demo.plat Demo.lib) 2 (call c!"string" c!"split-at"
    [.str c!"héy", .int (.lit 3)]) Demo.env []).1 = .ok (.list [.str c!"hé", .str c!"y"]) := rfl

end

/-! ### Instances: the hypotheses can be met -/

section

private abbrev i1 : Expr := .int (.lit 1)
private abbrev i2 : Expr := .int (.lit 2)

private theorem no_boundary : ∀ x y, c!"héy" = x ++ y → (I64.lit 2).val ≠ utf8Len x := by
  intro x y h
  match x, h with
  | [], _ => decide
  | [_], h => cases h; decide
  | [_, _], h => cases h; decide
  | _ :: _ :: _ :: t, h =>
    injection h with h1 h; injection h with h2 h; injection h with h3 h
    subst h1 h2 h3
    intro hv
    have : utf8Len ('h' :: 'é' :: 'y' :: t) = 4 + utf8Len t := by
      show 1 + (2 + (1 + utf8Len t)) = _
      omega
    have h2 : (I64.lit 2).val = 2 := by decide
    omega

example := C70_cons (P := Demo.plat) (H := Demo.host) (L := Demo.lib) (n := 0) (w := []) demo_std
  (a := i1) (b := .list [i2]) rfl rfl

example := C70_append (P := Demo.plat) (H := Demo.host) (L := Demo.lib) (n := 0) (w := []) demo_std
  (a := .list [i2]) (b := i1) rfl rfl

example := C70_tail_cons (P := Demo.plat) (H := Demo.host) (L := Demo.lib) (n := 0) (w := []) demo_std
  (a := i1) (b := .list [i2]) rfl rfl

example := C70_rev_cons (P := Demo.plat) (H := Demo.host) (L := Demo.lib) (n := 0) (w := []) demo_std
  (a := i1) (b := .list [i2, .none]) rfl rfl

example := C70_len_list (P := Demo.plat) (H := Demo.host) (L := Demo.lib) (n := 0) (w := []) demo_std
  (a := .list [i2, .none]) (by decide) rfl

example := C70_len_text (P := Demo.plat) (H := Demo.host) (L := Demo.lib) (n := 0) (w := []) demo_std
  (a := .str c!"héy") (by decide) rfl

example := C70_insert_list (P := Demo.plat) (H := Demo.host) (L := Demo.lib) (n := 0) (w := []) demo_std
  (a := .list [i1, i2]) (b := i1) (c := .none) (xs := [i1]) (ys := [i2]) (i := .lit 1) rfl rfl rfl rfl

example := C70_insert_list_bad (P := Demo.plat) (H := Demo.host) (L := Demo.lib) (n := 0) (w := [])
  demo_std (a := .list [i1]) (b := i2) (c := .none) (l := [i1]) (i := .lit 2) (by decide)
  (.inr (by decide)) rfl rfl rfl

example := C70_insert_text (P := Demo.plat) (H := Demo.host) (L := Demo.lib) (n := 0) (w := []) demo_std
  (a := .str c!"héy") (b := .int (.lit 3)) (c := i1) (x := c!"hé") (y := c!"y") (i := .lit 3)
  rfl rfl rfl rfl

example := C70_insert_text_crash (P := Demo.plat) (H := Demo.host) (L := Demo.lib) (n := 0) (w := [])
  demo_std (a := .str c!"héy") (b := i2) (c := i1) (s := c!"héy") (i := .lit 2) (by decide) (by decide)
  no_boundary rfl rfl rfl

example := C70_insert_text_bad (P := Demo.plat) (H := Demo.host) (L := Demo.lib) (n := 0) (w := [])
  demo_std (a := .str c!"a") (b := i2) (c := i1) (s := c!"a") (i := .lit 2) (by decide)
  (.inr (by decide)) rfl rfl rfl

example := C70_insert_map (P := Demo.plat) (H := Demo.host) (L := Demo.lib) (n := 0) (w := []) demo_std
  (a := .map [(c!"a", i1), (c!"c", i2)]) (b := .str c!"b") (c := i1)
  (by unfold BMap.Sorted; decide) rfl rfl rfl

example := C70_split_at_text (P := Demo.plat) (H := Demo.host) (L := Demo.lib) (n := 0) (w := [])
  demo_std (a := .str c!"héy") (b := .int (.lit 3)) (x := c!"hé") (y := c!"y") (i := .lit 3)
  rfl rfl rfl

example := C70_split_at_crash (P := Demo.plat) (H := Demo.host) (L := Demo.lib) (n := 0) (w := [])
  demo_std (a := .str c!"héy") (b := i2) (s := c!"héy") (i := .lit 2) (by decide) no_boundary rfl rfl

end

end Dune.Props
