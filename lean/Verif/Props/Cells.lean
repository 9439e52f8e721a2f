import Verif.Proof.Cells
import Verif.Proof.Program
import Verif.Props.Eval
import Verif.Props.Looks
import Verif.Props.Grammar

/-! C102: the memory that functions take. -/

namespace Dune.Props
open Spec

section

variable {W : Type} {P : Plat} {H : Host W} {B : BId → List Expr → M W Expr}

/-- C102: a function takes the cells of its text, of its parameter and the current directory, and of
a whole copy of the value of every variable it mentions (`ns`), each once. -/
theorem C102_function_size (k : Nat) (p : Str) (body : Expr) (env : Env) (w : W) (ns : List Str)
    (hn : ns.Nodup) (hm : ∀ s, s ∈ ns ↔ Mentions body s ∧ s ≠ p ∧ (env.get s).isSome = true)
    (hp : p ≠ c!"CWD") (hc : ¬ Mentions body c!"CWD") :
    ∃ f, evalD P H B (k + 1) (.lambda p body [] []) env w = (.ok f, env, w) ∧
      cells f = cells (.lambda p body [] []) + (p.length + 1) + (4 + env.getCwd.length) +
        (ns.map (cellsOf env)).sum := by
  obtain ⟨binds, hb, hg⟩ := C24_capture_exact (P := P) (H := H) (B := B) k p body env w
  refine ⟨_, hb, ?_⟩
  have hs : BMap.Sorted binds := by
    have h : evalD P H B (k + 1) (.lambda p body [] []) env w =
        (.ok (.lambda p body (closeLambda env p body Env.empty).bindings []), env, w) := by
      rw [evalD]
      simp only [evalStep, M.getEnv_bind, M.pure_apply, closeLambda_parents]
      rfl
    rw [h] at hb
    simp only [Prod.mk.injEq, Outcome.ok.injEq, Expr.lambda.injEq] at hb
    rw [← hb.1.2.2.1]
    exact closeLambda_sorted env p body
  have hcn : c!"CWD" ∉ ns := fun h => hc ((hm _).mp h).1
  have hpn : p ∉ ns := fun h => ((hm _).mp h).2.1 rfl
  let tgt : List (Str × Expr) := (p, .none) :: (c!"CWD", .str env.getCwd) ::
    ns.map fun s => (s, (env.get s).getD .none)
  have hnd : tgt.Nodup := by
    simp only [tgt, List.nodup_cons, List.mem_cons, List.mem_map, Prod.mk.injEq, not_or, not_exists,
      not_and]
    refine ⟨⟨fun h => absurd h hp, fun s hs e => absurd (e ▸ hs) hpn⟩,
      fun s hs e => absurd (e ▸ hs) hcn, ?_⟩
    exact hn.map fun a b h => (Prod.mk.inj h).1
  have hperm : binds.Perm tgt := by
    rw [List.perm_ext_iff_of_nodup (sorted_nodup hs) hnd]
    rintro ⟨s, v⟩
    have : (s, v) ∈ binds ↔ BMap.get? binds s = some v :=
      ⟨BMap.get?_of_mem hs, BMap.mem_of_get?⟩
    rw [this, hg]
    simp only [tgt, List.mem_cons, List.mem_map, Prod.mk.injEq]
    by_cases h : Mentions body s ∧ s ≠ p ∧ (env.get s).isSome = true
    · rw [if_pos h]
      have hs := (hm s).mpr h
      constructor
      · intro e
        exact .inr (.inr ⟨s, hs, rfl, by rw [e]; rfl⟩)
      · rintro (⟨rfl, _⟩ | ⟨rfl, _⟩ | ⟨a, _, rfl, rfl⟩)
        · exact absurd hs hpn
        · exact absurd hs hcn
        · obtain ⟨y, hy⟩ := Option.isSome_iff_exists.mp h.2.2
          rw [hy]; rfl
    · rw [if_neg h]
      have hs : s ∉ ns := fun hs => h ((hm s).mp hs)
      by_cases h1 : s = c!"CWD"
      · subst h1
        rw [if_pos rfl]
        constructor
        · intro e; simp only [Option.some.injEq] at e; exact .inr (.inl ⟨rfl, e.symm⟩)
        · rintro (⟨e, _⟩ | ⟨_, rfl⟩ | ⟨a, ha, rfl, _⟩)
          · exact absurd e.symm hp
          · rfl
          · exact absurd ha hs
      · rw [if_neg h1]
        by_cases h2 : s = p
        · subst h2
          rw [if_pos rfl]
          constructor
          · intro e; simp only [Option.some.injEq] at e; exact .inl ⟨rfl, e.symm⟩
          · rintro (⟨_, rfl⟩ | ⟨e, _⟩ | ⟨a, ha, rfl, _⟩)
            · rfl
            · exact absurd e h1
            · exact absurd ha hs
        · rw [if_neg h2]
          simp only [reduceCtorEq, false_iff, not_or, not_exists, not_and]
          exact ⟨fun e => absurd e h2, fun e => absurd e h1, fun a ha e => absurd (e ▸ ha) hs⟩
  have hsum : cellsMap (ns.map fun s => (s, (env.get s).getD .none)) =
      (ns.map (cellsOf env)).sum := by
    rw [cellsMap_eq, List.map_map]
    congr 1
    refine List.map_congr_left fun s hs => ?_
    obtain ⟨y, hy⟩ := Option.isSome_iff_exists.mp ((hm s).mp hs).2.2
    simp [cellsOf, hy]
  simp only [cells, cellsMap, cellsMaps, cellsMap_perm hperm, tgt, hsum, List.length_cons,
    List.length_nil]
  omega

/-- A variable a function mentions is copied into it. -/
theorem mentioned_fits {k : Nat} {p : Str} {body : Expr} {env : Env} {w : W} {xs : List Str}
    (hx : xs.Nodup) (hm : ∀ x ∈ xs, Mentions body x ∧ x ≠ p) :
    ∃ f, evalD P H B (k + 1) (.lambda p body [] []) env w = (.ok f, env, w) ∧
      1 + (xs.map (cellsOf env)).sum ≤ cells f := by
  obtain ⟨binds, hb, hg⟩ := C24_capture_exact (P := P) (H := H) (B := B) k p body env w
  refine ⟨_, hb, ?_⟩
  have key : ∀ (xs : List Str) (m : List (Str × Expr)), xs.Nodup →
      (∀ x ∈ xs, ∀ v, env.get x = some v → BMap.get? m x = some v) →
      (xs.map (cellsOf env)).sum ≤ cellsMap m := by
    intro xs
    induction xs with
    | nil => intro m _ _; simp
    | cons x xs ih =>
      intro m hn hg
      obtain ⟨hx, hn⟩ := List.nodup_cons.mp hn
      have h1 := ih (m.filter fun q => decide (q.1 ≠ x)) hn fun y hy v hv => by
        have := BMap.get?_remove m x y
        rw [BMap.remove] at this
        rw [this, if_neg (fun e : x = y => hx (e ▸ hy))]
        exact hg y (by simp [hy]) v hv
      have h2 : cellsOf env x + cellsMap (m.filter fun q => decide (q.1 ≠ x)) ≤ cellsMap m := by
        cases hv : env.get x with
        | none =>
          simp only [cellsOf, hv, Nat.zero_add]
          clear h1 hg
          induction m with
          | nil => simp
          | cons q m ih =>
            obtain ⟨y, e⟩ := q
            rw [List.filter_cons]
            split <;> simp only [cellsMap] <;> omega
        | some v =>
          have hgx := hg x (by simp) v hv
          simp only [cellsOf, hv]
          clear h1 hg
          have hle : ∀ m : List (Str × Expr),
              cellsMap (m.filter fun q => decide (q.1 ≠ x)) ≤ cellsMap m := by
            intro m
            induction m with
            | nil => simp
            | cons q m ih =>
              obtain ⟨y, e⟩ := q
              rw [List.filter_cons]
              split <;> simp only [cellsMap] <;> omega
          induction m with
          | nil => simp at hgx
          | cons q m ih =>
            obtain ⟨y, e⟩ := q
            simp only [BMap.get?] at hgx
            rw [List.filter_cons]
            split at hgx
            · rename_i h
              subst h
              simp only [Option.some.injEq] at hgx
              subst hgx
              simp only [ne_eq, not_true_eq_false, decide_false, Bool.false_eq_true, if_false,
                cellsMap]
              have := hle m
              simp only [ne_eq] at this
              omega
            · rename_i h
              rw [if_pos (by simpa using h)]
              simp only [cellsMap]
              have := ih hgx
              omega
      simp only [List.map_cons, List.sum_cons]
      omega
  have := key xs binds hx fun x hx v hv => by
    rw [hg, if_pos ⟨(hm x hx).1, (hm x hx).2, by simp [hv]⟩, hv]
  simp only [cells, cellsMaps]
  omega

/-- Both functions are defined again, each in terms of both. -/
def rewrap (f g p : Str) (b c : Expr) : List Expr :=
  [.assign f (.lambda p b [] []), .assign g (.lambda p c [] [])]

theorem rewrap_once {k : Nat} {f g p : Str} {b c : Expr} {l : List Expr} {env : Env} {w : W} {z : Nat}
    (hfg : f ≠ g) (hf : f ≠ p) (hg : g ≠ p)
    (hbf : Mentions b f) (hbg : Mentions b g) (hcf : Mentions c f) (hcg : Mentions c g)
    (h : z ≤ cellsOf env f + 1) (h' : z ≤ cellsOf env g + 1) :
    ∃ u v, 2 * z ≤ cells u + 1 ∧ 2 * z ≤ cells v + 1 ∧
      evalD P H B (k + 3) (.do_ (rewrap f g p b c ++ l)) env w =
        if l = [] then (.ok .none, (env.define f u).define g v, w)
        else evalD P H B (k + 3) (.do_ l) ((env.define f u).define g v) w := by
  obtain ⟨u, hu, hu'⟩ := mentioned_fits (P := P) (H := H) (B := B) (k := k) (env := env) (w := w)
    (p := p) (body := b) (xs := [f, g]) (by simp [hfg]) (by simp [hbf, hbg, hf, hg])
  obtain ⟨v, hv, hv'⟩ := mentioned_fits (P := P) (H := H) (B := B) (k := k)
    (env := env.define f u) (w := w)
    (p := p) (body := c) (xs := [f, g]) (by simp [hfg]) (by simp [hcf, hcg, hf, hg])
  have e1 : cellsOf (env.define f u) f = f.length + cells u := by
    simp [cellsOf, Env.get_define]
  have e2 : cellsOf (env.define f u) g = cellsOf env g := by
    simp [cellsOf, Env.get_define, hfg]
  simp only [List.map_cons, List.map_nil, List.sum_cons, List.sum_nil, e1, e2] at hu' hv'
  refine ⟨u, v, by omega, by omega, ?_⟩
  have s1 : evalD P H B (k + 2) (.assign f (.lambda p b [] [])) env w =
      (.ok .none, env.define f u, w) := by
    rw [evalD]
    simp only [evalStep, M.bind_ok hu, M.define_bind, M.pure_apply]
  have s2 : evalD P H B (k + 2) (.assign g (.lambda p c [] [])) (env.define f u) w =
      (.ok .none, (env.define f u).define g v, w) := by
    rw [evalD]
    simp only [evalStep, M.bind_ok hv, M.define_bind, M.pure_apply]
  rw [rewrap, List.cons_append, Calc.evalDo_cons, if_neg (by simp), M.bind_ok s1, List.cons_append,
    List.nil_append, Calc.evalDo_cons]
  split
  · exact s2
  · rw [M.bind_ok s2]

/-- `n` times -/
def rewraps (f g p : Str) (b c : Expr) : Nat → List Expr
  | 0 => []
  | n + 1 => rewrap f g p b c ++ rewraps f g p b c n

/-- C102: each time two functions are defined again, each in terms of both, the memory they take
doubles: after `n` times both take `2 ^ n - 1` cells or more. -/
theorem C102_doubles {f g p : Str} {b c : Expr} (k n : Nat) (env : Env) (w : W)
    (hfg : f ≠ g) (hf : f ≠ p) (hg : g ≠ p)
    (hbf : Mentions b f) (hbg : Mentions b g) (hcf : Mentions c f) (hcg : Mentions c g) :
    ∃ env' u v, evalD P H B (k + 3) (.do_ (rewraps f g p b c (n + 1))) env w = (.ok .none, env', w) ∧
      env'.get f = some u ∧ env'.get g = some v ∧
      2 ^ (n + 1) ≤ cells u + 1 ∧ 2 ^ (n + 1) ≤ cells v + 1 := by
  suffices h : ∀ (n z : Nat) (env : Env), z ≤ cellsOf env f + 1 → z ≤ cellsOf env g + 1 →
      ∃ env' u v, evalD P H B (k + 3) (.do_ (rewraps f g p b c (n + 1))) env w = (.ok .none, env', w) ∧
        env'.get f = some u ∧ env'.get g = some v ∧
        2 ^ (n + 1) * z ≤ cells u + 1 ∧ 2 ^ (n + 1) * z ≤ cells v + 1 by
    have := h n 1 env (by omega) (by omega)
    simpa using this
  intro n
  induction n with
  | zero =>
    intro z env h h'
    obtain ⟨u, v, hu, hv, he⟩ := rewrap_once (P := P) (H := H) (B := B) (k := k) (w := w) (l := [])
      hfg hf hg hbf hbg hcf hcg h h'
    refine ⟨_, u, v, he, ?_, ?_, by omega, by omega⟩
    · simp [Env.get_define, Ne.symm hfg]
    · simp [Env.get_define]
  | succ n ih =>
    intro z env h h'
    obtain ⟨u, v, hu, hv, he⟩ := rewrap_once (P := P) (H := H) (B := B) (k := k) (w := w)
      (l := rewraps f g p b c (n + 1)) hfg hf hg hbf hbg hcf hcg h h'
    rw [if_neg (by simp [rewraps, rewrap])] at he
    obtain ⟨env', u', v', h1, h2, h3, h4, h5⟩ := ih (2 * z) ((env.define f u).define g v)
      (by simp [cellsOf, Env.get_define, Ne.symm hfg]; omega)
      (by simp [cellsOf, Env.get_define]; omega)
    refine ⟨env', u', v', by rw [rewraps, he, h1], h2, h3, ?_, ?_⟩
    · rw [Nat.pow_succ, Nat.mul_assoc]; exact h4
    · rw [Nat.pow_succ, Nat.mul_assoc]; exact h5

/-! ### As a text -/

/-- `x -> a ( b x )` -/
def around (a b : Str) : List Word :=
  [(.symbol, c!"x"), pw c!"->", (.symbol, a), pw c!"(", (.symbol, b), (.symbol, c!"x"), pw c!")"]

def aroundBody (a b : Str) : Expr :=
  .apply (.symbol a) [.group (.apply (.symbol b) [.symbol c!"x"])]

/-- `let f = x -> f ( g x ) ; let g = x -> g ( f x ) ;` -/
def hooks : List Word :=
  kw c!"let" :: (.symbol, c!"f") :: pw c!"=" :: (around c!"f" c!"g" ++ pw c!";" ::
    (kw c!"let" :: (.symbol, c!"g") :: pw c!"=" :: (around c!"g" c!"f" ++ [pw c!";"])))

def hooksN (n : Nat) : List Word := (List.replicate n hooks).flatten

theorem around_g {a b : Str} (ha : a ∉ reserved) (hb : b ∉ reserved) :
    G P .expr (around a b) (Expr.lambda c!"x" (aroundBody a b) [] []) := by
  have nm {x : Str} (h : x ∉ reserved) : G P .two [(.symbol, x)] (Expr.symbol x) :=
    .base (.atom (.name h))
  have cmp {u : List Word} {x : Expr} (h : G P .two u x) : G P .cmp u x :=
    .rel (.sum (.prod (.two h)))
  exact .lambda (by decide) (.seven (.call (u := [_]) (nm ha) (.arg (cmp (.base (.group (u := [_, _])
    (.seven (.call (u := [_]) (nm hb) (.arg (cmp (nm (by decide))))))))))))

theorem hooksN_g (n : Nat) :
    G P .stmts (hooksN n) (rewraps c!"f" c!"g" c!"x" (aroundBody c!"f" c!"g") (aroundBody c!"g" c!"f") n) := by
  induction n with
  | zero => exact .done
  | succ n ih =>
    rw [hooksN, List.replicate_succ, List.flatten_cons, hooks]
    simp only [List.cons_append, List.append_assoc, List.nil_append]
    have l {a : Str} {u : List Word} {x : Expr} (ha : a ∉ reserved) (h : G P .expr u x) :
        G P .expr (kw c!"let" :: (.symbol, a) :: pw c!"=" :: u) (Expr.assign a x) :=
      .let_ (w := (.symbol, a)) (.inl ⟨rfl, ha⟩) h
    exact .stmt (u := _ :: _ :: _ :: around c!"f" c!"g") (l (by decide) (around_g (by decide) (by decide)))
      (.stmt (u := _ :: _ :: _ :: around c!"g" c!"f") (l (by decide) (around_g (by decide) (by decide))) ih)

theorem hooksN_words (n : Nat) : Words (Spec.spaced (hooksN n)) (hooksN n) := by
  apply C67_spaced
  intro w hw
  obtain ⟨l, hl, hw⟩ := List.mem_flatten.mp hw
  rw [(List.mem_replicate.mp hl).2] at hw
  have nm {c : Char} (h : c ∈ ['f', 'g', 'x']) : Lexeme (.symbol, [c]) ∧ Spec.isSolid (.symbol, [c]) = true := by
    simp only [List.mem_cons, List.not_mem_nil, or_false] at h
    rcases h with rfl | rfl | rfl <;>
      exact ⟨.name (by decide) (by decide) (by decide) (by decide) (by decide) (by simp), rfl⟩
  simp only [hooks, around, List.cons_append, List.nil_append, List.mem_cons, List.not_mem_nil,
    or_false] at hw
  have ks : Lexeme (kw c!"let") ∧ Spec.isSolid (kw c!"let") = true := ⟨.keyword (by decide), rfl⟩
  have ps {s : Str} (h : s ∈ [c!"(", c!")", c!"->", c!";", c!"="]) :
      Lexeme (pw s) ∧ Spec.isSolid (pw s) = true :=
    ⟨.punct ((show [c!"(", c!")", c!"->", c!";", c!"="] ⊆ _ by decide) h), rfl⟩
  rcases hw with rfl | rfl | rfl | rfl | rfl | rfl | rfl | rfl | rfl | rfl | rfl | rfl | rfl | rfl |
      rfl | rfl | rfl | rfl | rfl | rfl | rfl | rfl <;>
    first | exact ks | exact ps (by decide) | exact nm (by decide)

theorem hooksN_length (n : Nat) : (Spec.spaced (hooksN n)).length = 50 * n := by
  induction n with
  | zero => rfl
  | succ n ih =>
    rw [hooksN, List.replicate_succ, List.flatten_cons, spaced_append, List.length_append]
    have : (Spec.spaced hooks).length = 50 := rfl
    have ih' : (Spec.spaced (List.replicate n hooks).flatten).length = 50 * n := ih
    omega

/-- C102: the line `let f = x -> f ( g x ) ; let g = x -> g ( f x ) ;`, written `n` times, is a correct
program of `50 n` characters that fills `2 ^ n - 1` cells of memory and more. -/
theorem C102_hooks (P : Plat) (H : Host W) (bodies : BId → List Expr → BProg Expr) (m n : Nat)
    (env : Env) (w : W) :
    (Spec.spaced (hooksN (n + 1))).length = 50 * (n + 1) ∧
    ∃ e, parseText P (Spec.spaced (hooksN (n + 1))) = .ok e ∧
      ∃ env' f, evalN P H bodies m e env w = (.ok .none, env', w) ∧
        env'.get c!"f" = some f ∧ 2 ^ (n + 1) ≤ cells f + 1 := by
  refine ⟨hooksN_length _, _, C67_grammar (hooksN_words _) (hooksN_g _), ?_⟩
  have mf : ∀ a b : Str, Mentions (aroundBody a b) a := fun a b => .inside .applied (.here _)
  have mg : ∀ a b : Str, Mentions (aroundBody a b) b := fun a b =>
    .inside (.argument (List.mem_singleton_self _)) (.inside .group (.inside .applied (.here _)))
  obtain ⟨B, hB⟩ : ∃ B, evalN P H bodies m = evalD P H B 801 := by
    cases m <;> exact ⟨_, rfl⟩
  rw [hB]
  obtain ⟨env', u, v, h1, h2, _, h4, _⟩ := C102_doubles (P := P) (H := H) (B := B) (f := c!"f")
    (g := c!"g") (p := c!"x") 798 n env w (by decide) (by decide) (by decide)
    (mf c!"f" c!"g") (mg c!"f" c!"g") (mg c!"g" c!"f") (mf c!"g" c!"f")
  exact ⟨env', u, h1, h2, h4⟩

/-- C102: no polynomial in the length of a program that only defines functions bounds the memory it
takes. -/
theorem C102_no_polynomial (P : Plat) (H : Host W) (bodies : BId → List Expr → BProg Expr) (m : Nat)
    (env : Env) (w : W) (c d : Nat) :
    ∃ src e env' f, parseText P src = .ok e ∧ evalN P H bodies m e env w = (.ok .none, env', w) ∧
      env'.get c!"f" = some f ∧ c * src.length ^ d < cells f := by
  obtain ⟨n, hn⟩ := exp_beats (c * 25 ^ d) d
  obtain ⟨h1, e, h2, env', f, h3, h4, h5⟩ := C102_hooks P H bodies m n env w
  refine ⟨_, e, env', f, h2, h3, h4, ?_⟩
  rw [h1]
  have h6 : c * (50 * (n + 1)) ^ d ≤ c * 25 ^ d * (4 * n + 2) ^ d := by
    rw [Nat.mul_assoc, ← Nat.mul_pow]
    exact Nat.mul_le_mul_left _ (Nat.pow_le_pow_left (by omega) _)
  rw [Nat.pow_succ] at h5
  have : 1 ≤ 2 ^ n := Nat.one_le_two_pow
  omega

/-! ### Examples -/

/-- `x -> y x` where `y` is a text of three letters: seven cells for the function as it is written, two
for its parameter, five for the directory `/` and five for `y`. -/
example : ∃ f, evalD Demo.plat Demo.host Demo.noB 801
      (.lambda c!"x" (.list [.symbol c!"y", .symbol c!"x"]) [] [])
      (Env.empty.define c!"y" (.str c!"abc")) [] =
        (.ok f, Env.empty.define c!"y" (.str c!"abc"), []) ∧ cells f = 19 := by
  have h1 : ∀ s, s ∈ [c!"y"] ↔ Mentions (.list [.symbol c!"y", .symbol c!"x"]) s ∧ s ≠ c!"x" ∧
      ((Env.empty.define c!"y" (.str c!"abc")).get s).isSome = true := by
    intro s
    rw [← mentions_iff]
    simp only [List.mem_singleton, Env.get_define]
    constructor
    · rintro rfl; decide
    · rintro ⟨h, hx, _⟩
      have : s ∈ [c!"y", c!"x"] := h
      simp only [List.mem_cons, List.not_mem_nil, or_false] at this
      exact this.resolve_right hx
  have h2 : ¬ Mentions (.list [.symbol c!"y", .symbol c!"x"]) c!"CWD" := by
    rw [← mentions_iff]; decide
  exact C102_function_size 800 _ _ _ _ [c!"y"] (by simp) h1 (by decide) h2

end

/-! ### Instances: the hypotheses can be met -/

example := C102_doubles (P := Demo.plat) (H := Demo.host) (B := Demo.noB) (f := c!"f") (g := c!"g") (p := c!"x")
  (b := .list [.symbol c!"f", .symbol c!"g"]) (c := .list [.symbol c!"g", .symbol c!"f"]) 0 5 Env.empty []
  (by decide) (by decide) (by decide) (by rw [← mentions_iff]; decide) (by rw [← mentions_iff]; decide)
  (by rw [← mentions_iff]; decide) (by rw [← mentions_iff]; decide)

end Dune.Props
