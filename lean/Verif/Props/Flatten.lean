import Verif.Props.Dict

/-! C94: `dict@flatten`. -/

namespace Dune.Props

open Spec

/-- Neither a list nor a map. -/
def Leaf (v : Expr) : Prop := (∀ l, v ≠ .list l) ∧ ∀ m, v ≠ .map m

/-- `At v p x`: going down from `v` by the positions `p` (in lists by index, in maps by the rank of the
key) leads to `x`. -/
inductive At : Expr → List Nat → Expr → Prop
  | here (v : Expr) : At v [] v
  | list {l : List Expr} {i : Nat} {v x : Expr} {p : List Nat} : l[i]? = some v → At v p x →
      At (.list l) (i :: p) x
  | map {m : BMap Expr} {i : Nat} {k : Str} {v x : Expr} {p : List Nat} : m[i]? = some (k, v) →
      At v p x → At (.map m) (i :: p) x

/-- The order of positions: first the first index, then the rest. -/
def Earlier : List Nat → List Nat → Prop
  | [], [] => False
  | [], _ :: _ => True
  | _ :: _, [] => False
  | i :: p, j :: q => i < j ∨ i = j ∧ Earlier p q

/-- `l` lists the leaves of `v`, all of them, in the order of their positions. -/
def LeavesInOrder (v : Expr) (l : List Expr) : Prop :=
  ∃ pl : List (List Nat × Expr), l = pl.map (·.2) ∧ pl.Pairwise (fun a b => Earlier a.1 b.1) ∧
    ∀ p x, (p, x) ∈ pl ↔ At v p x ∧ Leaf x

theorem leaves_cons {v : Expr} {pl pr : List (List Nat × Expr)} {i : Nat}
    {R : Nat → List Nat → Expr → Prop}
    (h1 : pl.Pairwise (fun a b => Earlier a.1 b.1)) (h2 : ∀ p x, (p, x) ∈ pl ↔ At v p x ∧ Leaf x)
    (h3 : pr.Pairwise (fun a b => Earlier a.1 b.1))
    (h4 : ∀ q x, (q, x) ∈ pr ↔ ∃ k p, q = (i + 1 + k) :: p ∧ R k p x ∧ Leaf x) :
    (pl.map (fun a => (i :: a.1, a.2)) ++ pr).Pairwise (fun a b => Earlier a.1 b.1) ∧
    ∀ q x, (q, x) ∈ pl.map (fun a => (i :: a.1, a.2)) ++ pr ↔
      ∃ k p, q = (i + k) :: p ∧ (match k with | 0 => At v p x | k + 1 => R k p x) ∧ Leaf x := by
  constructor
  · rw [List.pairwise_append]
    refine ⟨?_, h3, ?_⟩
    · rw [List.pairwise_map]
      exact h1.imp fun h => .inr ⟨rfl, h⟩
    · intro a ha b hb
      rw [List.mem_map] at ha
      obtain ⟨a, _, rfl⟩ := ha
      obtain ⟨k, p, hb, _⟩ := (h4 b.1 b.2).mp hb
      rw [hb]
      exact .inl (by omega)
  · intro q x
    rw [List.mem_append, List.mem_map, h4]
    constructor
    · rintro (⟨⟨p, y⟩, ha, h⟩ | ⟨k, p, rfl, h⟩)
      · simp only [Prod.mk.injEq] at h
        obtain ⟨rfl, rfl⟩ := h
        exact ⟨0, p, rfl, (h2 _ _).mp ha⟩
      · exact ⟨k + 1, p, by rw [Nat.add_assoc, Nat.add_comm 1], h⟩
    · rintro ⟨k, p, rfl, h⟩
      cases k with
      | zero => exact .inl ⟨(p, x), (h2 p x).mpr h, rfl⟩
      | succ k => exact .inr ⟨k, p, by rw [Nat.add_assoc, Nat.add_comm 1], h⟩

theorem At.leaf_eq {v x : Expr} {p : List Nat} (hv : Leaf v) (h : At v p x) : p = [] ∧ x = v := by
  cases h with
  | here => exact ⟨rfl, rfl⟩
  | list _ _ => exact absurd rfl (hv.1 _)
  | map _ _ => exact absurd rfl (hv.2 _)

theorem leaf_leaves {v : Expr} (hv : Leaf v) : LeavesInOrder v (Builtins.flattenD v) := by
  have h : Builtins.flattenD v = [v] := by
    cases v with
    | list l => exact absurd rfl (hv.1 l)
    | map m => exact absurd rfl (hv.2 m)
    | _ => rw [Builtins.flattenD] <;> simp
  refine ⟨[([], v)], by rw [h]; rfl, by simp, fun p x => ?_⟩
  constructor
  · intro h
    simp at h
    obtain ⟨rfl, rfl⟩ := h
    exact ⟨.here x, hv⟩
  · rintro ⟨h, _⟩
    obtain ⟨rfl, rfl⟩ := At.leaf_eq hv h
    simp

mutual

theorem flattenD_leaves : ∀ v : Expr, LeavesInOrder v (Builtins.flattenD v)
  | .list l => by
    obtain ⟨pl, h1, h2, h3⟩ := flattenDList_leaves l 0
    refine ⟨pl, by rw [Builtins.flattenD, h1], h2, fun q x => ?_⟩
    rw [h3]
    constructor
    · rintro ⟨k, p, rfl, ⟨u, hu, ha⟩, hx⟩
      rw [Nat.zero_add]
      exact ⟨.list hu ha, hx⟩
    · rintro ⟨ha, hx⟩
      cases ha with
      | here => exact absurd rfl (hx.1 _)
      | list hu ha => exact ⟨_, _, by rw [Nat.zero_add], ⟨_, hu, ha⟩, hx⟩
  | .map m => by
    obtain ⟨pl, h1, h2, h3⟩ := flattenDMap_leaves m 0
    refine ⟨pl, by rw [Builtins.flattenD, h1], h2, fun q x => ?_⟩
    rw [h3]
    constructor
    · rintro ⟨k, p, rfl, ⟨c, u, hu, ha⟩, hx⟩
      rw [Nat.zero_add]
      exact ⟨.map hu ha, hx⟩
    · rintro ⟨ha, hx⟩
      cases ha with
      | here => exact absurd rfl (hx.2 _)
      | map hu ha => exact ⟨_, _, by rw [Nat.zero_add], ⟨_, _, hu, ha⟩, hx⟩
  | .group _ | .symbol _ | .int _ | .float _ | .bytes _ | .str _ | .bool _ | .none | .assign _ _
  | .for_ _ _ _ | .ite _ _ _ | .apply _ _ | .lambda _ _ _ _ | .macro_ _ _ | .do_ _ | .builtin _ _ _
  | .quote _ => leaf_leaves ⟨by simp, by simp⟩

theorem flattenDList_leaves : ∀ (l : List Expr) (i : Nat), ∃ pl : List (List Nat × Expr),
    Builtins.flattenDList l = pl.map (·.2) ∧ pl.Pairwise (fun a b => Earlier a.1 b.1) ∧
    ∀ q x, (q, x) ∈ pl ↔ ∃ k p, q = (i + k) :: p ∧ (∃ u, l[k]? = some u ∧ At u p x) ∧ Leaf x
  | [], i => ⟨[], by rw [Builtins.flattenDList]; rfl, .nil, by simp⟩
  | v :: l, i => by
    obtain ⟨pl, h1, h2, h3⟩ := flattenD_leaves v
    obtain ⟨pr, h4, h5, h6⟩ := flattenDList_leaves l (i + 1)
    obtain ⟨h7, h8⟩ := leaves_cons h2 h3 h5 h6
    refine ⟨_, ?_, h7, fun q x => (h8 q x).trans ?_⟩
    · rw [Builtins.flattenDList, h1, h4]
      simp
    · refine exists_congr fun k => exists_congr fun p => ?_
      cases k <;> simp

theorem flattenDMap_leaves : ∀ (m : List (Str × Expr)) (i : Nat), ∃ pl : List (List Nat × Expr),
    Builtins.flattenDMap m = pl.map (·.2) ∧ pl.Pairwise (fun a b => Earlier a.1 b.1) ∧
    ∀ q x, (q, x) ∈ pl ↔
      ∃ k p, q = (i + k) :: p ∧ (∃ c u, m[k]? = some (c, u) ∧ At u p x) ∧ Leaf x
  | [], i => ⟨[], by rw [Builtins.flattenDMap]; rfl, .nil, by simp⟩
  | (c, v) :: m, i => by
    obtain ⟨pl, h1, h2, h3⟩ := flattenD_leaves v
    obtain ⟨pr, h4, h5, h6⟩ := flattenDMap_leaves m (i + 1)
    obtain ⟨h7, h8⟩ := leaves_cons h2 h3 h5 h6
    refine ⟨_, ?_, h7, fun q x => (h8 q x).trans ?_⟩
    · rw [Builtins.flattenDMap, h1, h4]
      simp
    · refine exists_congr fun k => exists_congr fun p => ?_
      cases k with
      | zero =>
        refine and_congr_right fun _ => and_congr_left fun _ => ?_
        exact ⟨fun h => ⟨c, v, rfl, h⟩, fun ⟨c', u, e, h⟩ => by
          simp at e
          rw [e.2]
          exact h⟩
      | succ k => simp

end

theorem earlier_asymm : ∀ {p q : List Nat}, Earlier p q → ¬ Earlier q p
  | [], [], h, _ => h
  | [], _ :: _, _, h => h
  | _ :: _, [], h, _ => h
  | i :: p, j :: q, h, h' => by
    rcases h with h | ⟨rfl, h⟩
    · rcases h' with h' | ⟨rfl, _⟩ <;> omega
    · rcases h' with h' | ⟨_, h'⟩
      · omega
      · exact earlier_asymm h h'

theorem flat_leaves {l : List Expr} (h : ∀ x ∈ l, Leaf x) : Builtins.flattenDList l = l := by
  induction l with
  | nil => rw [Builtins.flattenDList]
  | cons v l ih =>
    have h1 : Builtins.flattenD v = [v] := by
      have hv := h v (by simp)
      cases v with
      | list l => exact absurd rfl (hv.1 l)
      | map m => exact absurd rfl (hv.2 m)
      | _ => rw [Builtins.flattenD] <;> simp
    rw [Builtins.flattenDList, h1, ih fun x hx => h x (List.mem_cons_of_mem _ hx)]
    rfl

section

variable {W : Type} {P : Plat} {H : Host W} {L : Lib} {n : Nat} {env env1 : Env} {w w1 : W}

/-- C94, `dict@flatten v` lists the leaves of `v` (what is neither a list nor a map, at any depth), all
of them and nothing else, in the order in which they stand in `v`, for maps in the order of the
keys. -/
theorem C94_flatten (hs : Std env) {a v : Expr}
    (ha : evalN P H (stdB P L) n a env w = (.ok v, env1, w1)) :
    ∃ l, evalN P H (stdB P L) (n + 1) (call c!"dict" c!"flatten" [a]) env w =
        (.ok (.list l), env1, w1) ∧ LeavesInOrder v l := by
  refine ⟨Builtins.flattenD v, ?_, flattenD_leaves v⟩
  lib hs, Init.dictM
  brun [Builtins.dFlattenB, ha]

/-- C94, the leaves in order are unique: no other list has them. -/
theorem C94_unique {v : Expr} {l l' : List Expr} (h : LeavesInOrder v l) (h' : LeavesInOrder v l') :
    l = l' := by
  obtain ⟨pl, rfl, h1, h2⟩ := h
  obtain ⟨pl', rfl, h1', h2'⟩ := h'
  have hnd : ∀ {pl : List (List Nat × Expr)}, pl.Pairwise (fun a b => Earlier a.1 b.1) → pl.Nodup :=
    fun h => h.imp fun {a b} hab (e : a = b) => by
      subst e
      exact earlier_asymm hab hab
  have hp : pl.Perm pl' := (List.perm_ext_iff_of_nodup (hnd h1) (hnd h1')).mpr fun ⟨p, x⟩ => by
    rw [h2, h2']
  rw [hp.eq_of_pairwise (fun a b _ _ hab hba => absurd hba (earlier_asymm hab)) h1 h1']

/-- C94, flattening a flat list changes nothing. -/
theorem C94_again (hs : Std env) {a b v : Expr} {l : List Expr}
    (ha : evalN P H (stdB P L) n a env w = (.ok v, env1, w1))
    (h : evalN P H (stdB P L) (n + 1) (call c!"dict" c!"flatten" [a]) env w = (.ok (.list l), env1, w1))
    (hb : evalN P H (stdB P L) n b env w = (.ok (.list l), env1, w1)) :
    evalN P H (stdB P L) (n + 1) (call c!"dict" c!"flatten" [b]) env w = (.ok (.list l), env1, w1) := by
  obtain ⟨l', h', pl, rfl, _, h2⟩ := C94_flatten (P := P) (L := L) hs ha
  rw [h] at h'
  obtain rfl : l = pl.map (·.2) := by simpa using h'
  have he : evalN P H (stdB P L) (n + 1) (call c!"dict" c!"flatten" [b]) env w =
      (.ok (.list (Builtins.flattenD (.list (pl.map (·.2))))), env1, w1) := by
    lib hs, Init.dictM
    brun [Builtins.dFlattenB, hb]
  rw [he, Builtins.flattenD, flat_leaves]
  intro x hx
  rw [List.mem_map] at hx
  obtain ⟨⟨p, y⟩, hy, rfl⟩ := hx
  exact ((h2 p y).mp hy).2

end

/-- `[[1, []], {b: [2], a: 3}]` is flattened to `[1, 3, 2]` -/
example : (evalN Demo.plat Demo.host (stdB Demo.plat Demo.lib) 2 (call c!"dict" c!"flatten"
    [.list [.list [.int (I64.lit 1), .list []],
      .map [(c!"a", .int (I64.lit 3)), (c!"b", .list [.int (I64.lit 2)])]]]) Demo.env []).1 =
    .ok (.list [.int (I64.lit 1), .int (I64.lit 3), .int (I64.lit 2)]) := rfl

/-! ### Instances: the hypotheses can be met -/

example := C94_flatten (P := Demo.plat) (H := Demo.host) (L := Demo.lib) (n := 0) (w := [])
  demo_std (a := .list [.int (.lit 1), .list [.none]]) rfl

end Dune.Props
