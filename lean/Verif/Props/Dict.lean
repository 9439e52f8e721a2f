import Verif.Props.Lists

/-!
C45–C47: dictionaries.  A dictionary value is the list of its entries in ascending key order
(`BMap.Sorted`), the only dictionaries a `BTreeMap` can hold.
-/

namespace Dune.Props

open Spec

section

variable {W : Type} {P : Plat} {H : Host W} {L : Lib} {n : Nat} {env env1 env2 env3 : Env}
  {w w1 w2 w3 : W}

theorem mem_iff_get? {m : BMap Expr} (hs : BMap.Sorted m) {x : Str} {v : Expr} :
    (x, v) ∈ m ↔ BMap.get? m x = some v :=
  ⟨BMap.get?_of_mem hs, BMap.mem_of_get?⟩

/-! ### C45 -/

/-- C45, `dict@insert d k v` contains `v` under `k` and everything else unchanged. -/
theorem C45_insert (hs : Std env) {de ke ve k v : Expr} {m : BMap Expr} (hm : BMap.Sorted m)
    (hd : evalN P H (stdB P L) n de env w = (.ok (.map m), env1, w1))
    (hk : evalN P H (stdB P L) n ke env1 w1 = (.ok k, env2, w2))
    (hv : evalN P H (stdB P L) n ve env2 w2 = (.ok v, env3, w3)) :
    ∃ m', evalN P H (stdB P L) (n + 1) (call c!"dict" c!"insert" [de, ke, ve]) env w =
        (.ok (.map m'), env3, w3) ∧ BMap.Sorted m' ∧
      ∀ x u, (x, u) ∈ m' ↔ (x = display P k ∧ u = v) ∨ (x ≠ display P k ∧ (x, u) ∈ m) := by
  refine ⟨BMap.insert m (display P k) v, ?_, hm.insert _ _, ?_⟩
  · lib hs, Init.dictM
    brun [Builtins.dInsertB, hd, hk, hv]
  · intro x u
    rw [mem_iff_get? (hm.insert _ _), mem_iff_get? hm, BMap.get?_insert]
    by_cases h : x = display P k
    · subst h; simp [eq_comm]
    · simp [h, Ne.symm h]

/-- C45, `dict@remove d k` contains exactly the other entries. -/
theorem C45_remove (hs : Std env) {de ke k : Expr} {m : BMap Expr} (hm : BMap.Sorted m)
    (hd : evalN P H (stdB P L) n de env w = (.ok (.map m), env1, w1))
    (hk : evalN P H (stdB P L) n ke env1 w1 = (.ok k, env2, w2)) :
    ∃ m', evalN P H (stdB P L) (n + 1) (call c!"dict" c!"remove" [de, ke]) env w =
        (.ok (.map m'), env2, w2) ∧ BMap.Sorted m' ∧
      ∀ x u, (x, u) ∈ m' ↔ x ≠ display P k ∧ (x, u) ∈ m := by
  refine ⟨BMap.remove m (display P k), ?_, hm.remove _, ?_⟩
  · lib hs, Init.dictM
    brun [Builtins.dRemoveB, hd, hk]
  · intro x u
    simp [BMap.remove, and_comm]

/-- C45, `dict@has? d k` says whether the key is present. -/
theorem C45_has (hs : Std env) {de ke k : Expr} {m : BMap Expr} (hm : BMap.Sorted m)
    (hd : evalN P H (stdB P L) n de env w = (.ok (.map m), env1, w1))
    (hk : evalN P H (stdB P L) n ke env1 w1 = (.ok k, env2, w2)) :
    ∃ r, evalN P H (stdB P L) (n + 1) (call c!"dict" c!"has?" [de, ke]) env w =
        (.ok (.bool r), env2, w2) ∧ (r = true ↔ ∃ u, (display P k, u) ∈ m) := by
  refine ⟨BMap.contains m (display P k), ?_, ?_⟩
  · lib hs, Init.dictM
    brun [Builtins.dHasB, hd, hk]
  · rw [BMap.contains_iff]
    simp only [mem_iff_get? hm]

/-- C45, a string used as a key is that key. -/
theorem C45_key (s : Str) : display P (.str s) = s := rfl

/-- C45, `dict@keys d` lists the keys, each once and in ascending order; `dict@values d` the values
in the same order; `dict@len d` their number. -/
theorem C45_keys_values_len (hs : Std env) {de : Expr} {m : BMap Expr} (hm : BMap.Sorted m)
    (hl : m.length < 2 ^ 63)
    (hd : evalN P H (stdB P L) n de env w = (.ok (.map m), env1, w1)) :
    ∃ (ks : List Str) (vs : List Expr) (k : I64),
      evalN P H (stdB P L) (n + 1) (call c!"dict" c!"keys" [de]) env w =
        (.ok (.list (ks.map .str)), env1, w1) ∧
      evalN P H (stdB P L) (n + 1) (call c!"dict" c!"values" [de]) env w =
        (.ok (.list vs), env1, w1) ∧
      evalN P H (stdB P L) (n + 1) (call c!"dict" c!"len" [de]) env w =
        (.ok (.int k), env1, w1) ∧
      ks.Pairwise (fun a b => cmpStr a b = .lt) ∧ m = ks.zip vs ∧ ks.length = vs.length ∧
      k.val = ks.length := by
  refine ⟨m.map (·.1), m.map (·.2), I64.wrap m.length, ?_, ?_, ?_, ?_, ?_, ?_, ?_⟩
  · lib hs, Init.dictM
    brun [Builtins.dKeysB, hd]
  · lib hs, Init.dictM
    brun [Builtins.dValuesB, hd]
  · lib hs, Init.dictM
    brun [Builtins.dLenB, hd, Builtins.lenInt]
  · rw [List.pairwise_map]
    exact hm
  · rw [List.zip_map']; simp
  · simp
  · simp only [List.length_map, I64.wrap]
    rw [Int.bmod_eq_of_le] <;> omega

/-- C45, `vals d` lists the values in the order of the keys, like `dict@values d`. -/
theorem C45_vals (hs : Std env) {de : Expr} {m : BMap Expr} (hm : BMap.Sorted m)
    (hd : evalN P H (stdB P L) n de env w = (.ok (.map m), env1, w1)) :
    ∃ (ks : List Str) (vs : List Expr),
      evalN P H (stdB P L) (n + 1) (.apply (.symbol c!"vals") [de]) env w =
        (.ok (.list vs), env1, w1) ∧
      ks.Pairwise (fun a b => cmpStr a b = .lt) ∧ m = ks.zip vs ∧ ks.length = vs.length := by
  refine ⟨m.map (·.1), m.map (·.2), ?_, ?_, ?_, ?_⟩
  · rw [eval_top hs (nm := c!"vals") (id := .vals) (hlp := []) (by mem_tac)]
    brun [Builtins.valsB, hd]
  · rw [List.pairwise_map]
    exact hm
  · rw [List.zip_map']; simp
  · simp

/-- C45, looking up a key in `dict@insert d k v` with `@`: the new value for the key inserted,
otherwise what the dictionary held. -/
theorem C45_insert_lookup (hs : Std env) {de ve v : Expr} {k x : Str} {m : BMap Expr}
    (hd : evalN P H (stdB P L) n de env w = (.ok (.map m), env1, w1))
    (hv : evalN P H (stdB P L) n ve env1 w1 = (.ok v, env2, w2)) :
    evalN P H (stdB P L) (n + 2)
        (.apply (.symbol c!"@") [call c!"dict" c!"insert" [de, .str k, ve], .str x]) env w =
      (if x = k then (.ok v, env2, w2) else
        ((evalN P H (stdB P L) (n + 1) (.apply (.symbol c!"@") [de, .str x]) env w).1,
          env2, w2)) := by
  have hat : env.get c!"@" = some (.builtin c!"@" .index []) :=
    hs.op (Init.b c!"@" .index) (by mem_tac)
  have h1 : evalN P H (stdB P L) (n + 1) (call c!"dict" c!"insert" [de, .str k, ve]) env w =
      (.ok (.map (BMap.insert m k v)), env2, w2) := by
    lib hs, Init.dictM
    brun [Builtins.dInsertB, hd, hv, display_str]
  rw [evalN_symbol hat, evalN_symbol hat]
  brun [Builtins.indexB, Builtins.indexLoop, h1, hd, Expr.index, BMap.get?_insert]
  by_cases h : x = k
  · simp [h]
  · simp [h, Ne.symm h]

/-! ### C46 -/

theorem get?_filter (p : Str → Bool) : ∀ (m : BMap Expr) (x : Str),
    BMap.get? (m.filter fun e => p e.1) x = if p x then BMap.get? m x else none
  | [], x => by simp
  | (k, v) :: m, x => by
    simp only [List.filter_cons]
    by_cases hk : k = x
    · subst hk
      by_cases hp : p k
      · simp [hp, BMap.get?]
      · simp [hp, get?_filter p m]
    · by_cases hp : p k
      · simp [hp, BMap.get?, hk, get?_filter p m]
      · simp [hp, BMap.get?, hk, get?_filter p m]

theorem get?_dDifference : ∀ (b a : BMap Expr) (x : Str), BMap.get? (Builtins.dDifference a b) x =
    if BMap.contains b x then none else BMap.get? a x
  | [], a, x => by simp [Builtins.dDifference, BMap.contains]
  | (k, u) :: b, a, x => by
    simp only [Builtins.dDifference]
    rw [get?_dDifference b, BMap.get?_remove]
    by_cases h : k = x
    · simp [BMap.contains, BMap.get?, h]
    · simp [BMap.contains, BMap.get?, h]

theorem sorted_dDifference : ∀ (b : BMap Expr) {a : BMap Expr}, BMap.Sorted a →
    BMap.Sorted (Builtins.dDifference a b)
  | [], _, h => h
  | (_, _) :: b, _, h => sorted_dDifference b (h.remove _)

theorem get?_reverse : ∀ {m : BMap Expr}, BMap.Sorted m → ∀ x, BMap.get? m.reverse x = BMap.get? m x
  | [], _, _ => rfl
  | (k, v) :: m, h, x => by
    rw [List.reverse_cons, BMap.get?_extend.get?_append]
    simp only [BMap.Sorted, List.pairwise_cons] at h
    rw [get?_reverse h.2]
    by_cases hk : k = x
    · subst hk
      have : BMap.get? m k = none :=
        BMap.get?_eq_none_iff.mpr fun p hp => (cmpStr_ne_of_lt (h.1 p hp)).symm
      simp [this, BMap.get?]
    · simp [BMap.get?, hk]

/-- C46, `dict@union a b`: the entries of `b`, and those of `a` under other keys. -/
theorem C46_union (hs : Std env) {xe ye : Expr} {a b : BMap Expr} (ha : BMap.Sorted a)
    (hb : BMap.Sorted b)
    (hx : evalN P H (stdB P L) n xe env w = (.ok (.map a), env1, w1))
    (hy : evalN P H (stdB P L) n ye env1 w1 = (.ok (.map b), env2, w2)) :
    ∃ m, evalN P H (stdB P L) (n + 1) (call c!"dict" c!"union" [xe, ye]) env w =
        (.ok (.map m), env2, w2) ∧ BMap.Sorted m ∧
      ∀ x u, (x, u) ∈ m ↔ (x, u) ∈ b ∨ ((x, u) ∈ a ∧ ∀ u', (x, u') ∉ b) := by
  refine ⟨BMap.extend a b, ?_, .extend b ha, ?_⟩
  · lib hs, Init.dictM
    brun [Builtins.dTwoB, Builtins.dUnion, hx, hy]
  · intro x u
    simp only [mem_iff_get? (BMap.Sorted.extend b ha), mem_iff_get? ha, mem_iff_get? hb,
      BMap.get?_extend, get?_reverse hb]
    cases BMap.get? b x <;> simp

/-- C46, `dict@intersect a b`: the entries of `a` whose key is in `b`. -/
theorem C46_intersect (hs : Std env) {xe ye : Expr} {a b : BMap Expr} (ha : BMap.Sorted a)
    (hb : BMap.Sorted b)
    (hx : evalN P H (stdB P L) n xe env w = (.ok (.map a), env1, w1))
    (hy : evalN P H (stdB P L) n ye env1 w1 = (.ok (.map b), env2, w2)) :
    ∃ m, evalN P H (stdB P L) (n + 1) (call c!"dict" c!"intersect" [xe, ye]) env w =
        (.ok (.map m), env2, w2) ∧ BMap.Sorted m ∧
      ∀ x u, (x, u) ∈ m ↔ (x, u) ∈ a ∧ ∃ u', (x, u') ∈ b := by
  have hf : BMap.Sorted (a.filter fun p => BMap.contains b p.1) := ha.sublist List.filter_sublist
  refine ⟨a.filter fun p => BMap.contains b p.1, ?_, hf, ?_⟩
  · lib hs, Init.dictM
    brun [Builtins.dTwoB, Builtins.dIntersect, hx, hy, ofList_sorted hf]
  · intro x u
    simp only [List.mem_filter, BMap.contains_iff, mem_iff_get? hb]

/-- C46, `dict@difference a b`: the entries of `a` whose key is not in `b`. -/
theorem C46_difference (hs : Std env) {xe ye : Expr} {a b : BMap Expr} (ha : BMap.Sorted a)
    (hb : BMap.Sorted b)
    (hx : evalN P H (stdB P L) n xe env w = (.ok (.map a), env1, w1))
    (hy : evalN P H (stdB P L) n ye env1 w1 = (.ok (.map b), env2, w2)) :
    ∃ m, evalN P H (stdB P L) (n + 1) (call c!"dict" c!"difference" [xe, ye]) env w =
        (.ok (.map m), env2, w2) ∧ BMap.Sorted m ∧
      ∀ x u, (x, u) ∈ m ↔ (x, u) ∈ a ∧ ∀ u', (x, u') ∉ b := by
  refine ⟨Builtins.dDifference a b, ?_, sorted_dDifference b ha, ?_⟩
  · lib hs, Init.dictM
    brun [Builtins.dTwoB, hx, hy]
  · intro x u
    simp only [mem_iff_get? (sorted_dDifference b ha), mem_iff_get? ha, mem_iff_get? hb,
      get?_dDifference]
    have h : BMap.contains b x = true ↔ ∃ v, BMap.get? b x = some v := BMap.contains_iff
    by_cases hc : BMap.contains b x = true
    · obtain ⟨v, hv⟩ := h.mp hc
      simp [hc, hv]
    · have hv : ∀ v, BMap.get? b x ≠ some v := fun v hv => hc (h.mpr ⟨v, hv⟩)
      simp [hc, hv]

/-! ### C47 -/

theorem fromItems_items : ∀ (m acc : BMap Expr),
    Builtins.fromItems P acc (m.map fun p => .list [.str p.1, p.2]) = BMap.extend acc m
  | [], _ => rfl
  | (k, v) :: m, acc => by
    simp [Builtins.fromItems, display_str, BMap.extend, fromItems_items m]

/-- C47, a dictionary is restored from its items. -/
theorem C47_from_items_items (hs : Std env) {de : Expr} {m : BMap Expr} (hm : BMap.Sorted m)
    (hd : evalN P H (stdB P L) n de env w = (.ok (.map m), env1, w1)) :
    evalN P H (stdB P L) (n + 2)
        (call c!"dict" c!"from-items" [call c!"dict" c!"items" [de]]) env w =
      (.ok (.map m), env1, w1) := by
  have h1 : evalN P H (stdB P L) (n + 1) (call c!"dict" c!"items" [de]) env w =
      (.ok (.list (m.map fun p => .list [.str p.1, p.2])), env1, w1) := by
    lib hs, Init.dictM
    brun [Builtins.dItemsB, hd]
  lib hs, Init.dictM
  brun [Builtins.dFromItemsB, h1, fromItems_items]
  exact ofList_sorted hm

theorem enumPairs_get : ∀ (l : List Expr) (k i : Nat), (Builtins.enumPairs k l)[i]? =
    l[i]?.map fun v => .list [.int (I64.wrap ((k + i : Nat) : Int)), v]
  | [], k, i => by simp [Builtins.enumPairs]
  | v :: vs, k, 0 => by simp [Builtins.enumPairs, Builtins.lenInt]
  | v :: vs, k, i + 1 => by
    simp only [Builtins.enumPairs, List.getElem?_cons_succ, enumPairs_get vs (k + 1) i]
    rw [Nat.add_right_comm k 1 i, Nat.add_assoc]

/-- C47, `dict@items` of a dictionary gives its entries in the order of the keys, of a list its elements
with their positions counted from zero, and of any other value nothing. -/
theorem C47_items (hs : Std env) {xe x : Expr} (hx : evalN P H (stdB P L) n xe env w = (.ok x, env1, w1)) :
    ∃ v, evalN P H (stdB P L) (n + 1) (call c!"dict" c!"items" [xe]) env w = (.ok v, env1, w1) ∧
      (∀ m, x = .map m → v = .list (m.map fun p => .list [.str p.1, p.2])) ∧
      (∀ l, x = .list l → l.length < 2 ^ 63 → ∃ ps, v = .list ps ∧ ps.length = l.length ∧
        ∀ i, ∀ h : i < l.length, ∃ k : I64, k.val = i ∧ ps[i]? = some (.list [.int k, l[i]])) ∧
      ((∀ m, x ≠ .map m) → (∀ l, x ≠ .list l) → v = .none) := by
  have h1 : evalN P H (stdB P L) (n + 1) (call c!"dict" c!"items" [xe]) env w =
      (.ok (match x with
        | .map m => .list (m.map fun p => .list [.str p.1, p.2])
        | .list l => .list (Builtins.enumPairs 0 l)
        | _ => .none), env1, w1) := by
    cases x <;> (lib hs, Init.dictM; brun [Builtins.dItemsB, hx])
  refine ⟨_, h1, ?_, ?_, ?_⟩
  · rintro m rfl; rfl
  · rintro l rfl hl
    refine ⟨_, rfl, ?_, ?_⟩
    · have : ∀ (l : List Expr) k, (Builtins.enumPairs k l).length = l.length := by
        intro l
        induction l with
        | nil => intro _; rfl
        | cons v vs ih => intro k; simp [Builtins.enumPairs, ih]
      exact this l 0
    · intro i hi
      refine ⟨I64.wrap i, ?_, by rw [enumPairs_get]; simp [hi]⟩
      simp only [I64.wrap]
      rw [Int.bmod_eq_of_le] <;> omega
  · intro h1 h2
    cases x <;> first | rfl | exact absurd rfl (h1 _) | exact absurd rfl (h2 _)

/-- C47, `dict@from-items` of any list of pairs: under each key the value of the last pair with that
key (the key being the rendering of the first component). -/
theorem C47_last_wins (hs : Std env) {xe : Expr} {ps : List (Expr × Expr)}
    (hx : evalN P H (stdB P L) n xe env w =
      (.ok (.list (ps.map fun p => .list [p.1, p.2])), env1, w1)) :
    ∃ m, evalN P H (stdB P L) (n + 1) (call c!"dict" c!"from-items" [xe]) env w =
        (.ok (.map m), env1, w1) ∧ BMap.Sorted m ∧
      ∀ x u, (x, u) ∈ m ↔ ∃ pre p post, ps = pre ++ p :: post ∧ display P p.1 = x ∧ p.2 = u ∧
        ∀ q ∈ post, display P q.1 ≠ x := by
  have hfi : ∀ (ps : List (Expr × Expr)) (acc : BMap Expr),
      Builtins.fromItems P acc (ps.map fun p => .list [p.1, p.2]) =
        BMap.extend acc (ps.map fun p => (display P p.1, p.2)) := by
    intro ps
    induction ps with
    | nil => intro _; rfl
    | cons p ps ih => intro acc; simp [Builtins.fromItems, BMap.extend, ih]
  refine ⟨BMap.ofList (ps.map fun p => (display P p.1, p.2)), ?_, .ofList _, ?_⟩
  · lib hs, Init.dictM
    brun [Builtins.dFromItemsB, hx, hfi]
    rfl
  · intro x u
    rw [mem_iff_get? (.ofList _), BMap.ofList, BMap.get?_extend, BMap.get?_nil, Option.or_none,
      ← List.map_reverse]
    have hg : ∀ (qs : List (Expr × Expr)),
        BMap.get? (qs.map fun p => (display P p.1, p.2)) x = some u ↔
          ∃ pre p post, qs = pre ++ p :: post ∧ display P p.1 = x ∧ p.2 = u ∧
            ∀ q ∈ pre, display P q.1 ≠ x := by
      intro qs
      induction qs with
      | nil => simp
      | cons q qs ih =>
        simp only [List.map_cons, BMap.get?]
        by_cases hq : display P q.1 = x
        · simp only [hq, if_true, Option.some.injEq]
          constructor
          · intro h
            exact ⟨[], q, qs, rfl, hq, h, by simp⟩
          · rintro ⟨pre, p, post, h, hp, hu, hpre⟩
            cases pre with
            | nil =>
              simp only [List.nil_append, List.cons.injEq] at h
              rw [h.1]; exact hu
            | cons r pre =>
              simp only [List.cons_append, List.cons.injEq] at h
              exact absurd (h.1 ▸ hq) (hpre r (by simp))
        · simp only [hq, if_false, ih]
          constructor
          · rintro ⟨pre, p, post, h, hp, hu, hpre⟩
            refine ⟨q :: pre, p, post, by simp [h], hp, hu, ?_⟩
            intro r hr
            rw [List.mem_cons] at hr
            rcases hr with rfl | hr
            · exact hq
            · exact hpre r hr
          · rintro ⟨pre, p, post, h, hp, hu, hpre⟩
            cases pre with
            | nil =>
              simp only [List.nil_append, List.cons.injEq] at h
              exact absurd (h.1 ▸ hp) hq
            | cons r pre =>
              simp only [List.cons_append, List.cons.injEq] at h
              exact ⟨pre, p, post, h.2, hp, hu, fun q hq => hpre q (by simp [hq])⟩
    rw [hg]
    constructor
    · rintro ⟨pre, p, post, h, hp, hu, hpre⟩
      refine ⟨post.reverse, p, pre.reverse, ?_, hp, hu, by simpa using hpre⟩
      have := congrArg List.reverse h
      simpa using this
    · rintro ⟨pre, p, post, h, hp, hu, hpre⟩
      exact ⟨post.reverse, p, pre.reverse, by simp [h], hp, hu, by simpa using hpre⟩

end

section

private def d1 : Expr := .map [(c!"a", .int (.lit 1)), (c!"b", .none)]

example : (evalN Demo.plat Demo.host (stdB Demo.plat Demo.lib) 1
    (call c!"dict" c!"items" [.list [.str c!"a", .none]]) Demo.env []).1 =
    .ok (.list [.list [.int (.lit 0), .str c!"a"], .list [.int (.lit 1), .none]]) := rfl

example : (evalN Demo.plat Demo.host (stdB Demo.plat Demo.lib) 1
    (call c!"dict" c!"insert" [d1, .str c!"aa", .bool true]) Demo.env []).1 =
    .ok (.map [(c!"a", .int (.lit 1)), (c!"aa", .bool true), (c!"b", .none)]) := rfl
example : (evalN Demo.plat Demo.host (stdB Demo.plat Demo.lib) 2
    (call c!"dict" c!"from-items" [call c!"dict" c!"items" [d1]]) Demo.env []).1 = .ok d1 := rfl
example : (evalN Demo.plat Demo.host (stdB Demo.plat Demo.lib) 2
    (call c!"dict" c!"difference" [d1, .map [(c!"b", .int (.lit 7))]]) Demo.env []).1 =
    .ok (.map [(c!"a", .int (.lit 1))]) := rfl
example : BMap.Sorted [(c!"a", (.none : Expr)), (c!"b", .none)] :=
  .cons (by simp [cmpStr]) (.cons (by simp) .nil)

end

/-! ### Instances: the hypotheses can be met -/

section

private abbrev dm : BMap Expr := [(c!"a", .int (.lit 1)), (c!"b", .none)]
private abbrev dm2 : BMap Expr := [(c!"b", .int (.lit 7)), (c!"c", .none)]

private theorem dm_sorted : BMap.Sorted dm := by unfold BMap.Sorted; decide
private theorem dm2_sorted : BMap.Sorted dm2 := by unfold BMap.Sorted; decide

example := C45_insert (P := Demo.plat) (H := Demo.host) (L := Demo.lib) (n := 0) (w := []) demo_std
  (de := .map dm) (ke := .int (.lit 5)) (ve := .str c!"v") dm_sorted rfl rfl rfl

example := C45_remove (P := Demo.plat) (H := Demo.host) (L := Demo.lib) (n := 0) (w := []) demo_std
  (de := .map dm) (ke := .str c!"a") dm_sorted rfl rfl

example := C45_has (P := Demo.plat) (H := Demo.host) (L := Demo.lib) (n := 0) (w := []) demo_std
  (de := .map dm) (ke := .str c!"a") dm_sorted rfl rfl

example := C45_keys_values_len (P := Demo.plat) (H := Demo.host) (L := Demo.lib) (n := 0) (w := [])
  demo_std (de := .map dm) dm_sorted (by decide) rfl

example := C45_vals (P := Demo.plat) (H := Demo.host) (L := Demo.lib) (n := 0) (w := []) demo_std
  (de := .map dm) dm_sorted rfl

example := C45_insert_lookup (P := Demo.plat) (H := Demo.host) (L := Demo.lib) (n := 0) (w := [])
  demo_std (de := .map dm) (ve := .bool true) (k := c!"aa") (x := c!"b") rfl rfl

example := C46_union (P := Demo.plat) (H := Demo.host) (L := Demo.lib) (n := 0) (w := []) demo_std
  (xe := .map dm) (ye := .map dm2) dm_sorted dm2_sorted rfl rfl

example := C46_intersect (P := Demo.plat) (H := Demo.host) (L := Demo.lib) (n := 0) (w := []) demo_std
  (xe := .map dm) (ye := .map dm2) dm_sorted dm2_sorted rfl rfl

example := C46_difference (P := Demo.plat) (H := Demo.host) (L := Demo.lib) (n := 0) (w := []) demo_std
  (xe := .map dm) (ye := .map dm2) dm_sorted dm2_sorted rfl rfl

example := C47_from_items_items (P := Demo.plat) (H := Demo.host) (L := Demo.lib) (n := 0) (w := [])
  demo_std (de := .map dm) dm_sorted rfl

example := C47_items (P := Demo.plat) (H := Demo.host) (L := Demo.lib) (n := 0) (w := []) demo_std
  (xe := .list [.none, .map dm]) rfl

example := C47_last_wins (P := Demo.plat) (H := Demo.host) (L := Demo.lib) (n := 0) (w := []) demo_std
  (xe := .list [.list [.str c!"k", .none], .list [.str c!"k", .int (.lit 2)]])
  (ps := [(.str c!"k", .none), (.str c!"k", .int (.lit 2))]) rfl

end

end Dune.Props
