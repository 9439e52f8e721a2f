import Verif.Props.Tree

/-! C93: `fs@tree`. -/

namespace Dune.Props

open Spec

/-- The value reached by following names through nested maps: `v@n1@n2@…`. -/
def follow : Expr → List Str → Option Expr
  | v, [] => some v
  | .map m, n :: r => (BMap.get? m n).bind (follow · r)
  | _, _ :: _ => none

/-- The value `o` shown for what is at the path `p`: nothing if there is nothing, the path for a file,
a map with the path and the path of its parent for a directory. -/
def ShownAs (p : List Str) : Option Entry → Option Expr → Prop
  | none, o => o = none
  | some (.file _), o => o = some (.str (render p))
  | some .dir, o => ∃ m, o = some (.map m) ∧ BMap.get? m c!"." = some (.str (render p)) ∧
      BMap.get? m c!".." = some (.str (render p.dropLast))

/-- `v` is a picture of everything at and below `p`, and of nothing else: following any names through
`v` shows what is at the path with these names. -/
def Pictures (f : List Str → Option Entry) (p : List Str) (v : Expr) : Prop :=
  ∀ r, (∀ n ∈ r, n ≠ c!"." ∧ n ≠ c!"..") → ShownAs (p ++ r) (f (p ++ r)) (follow v r)

/-! ### The parent of a path -/

theorem trimTail_name {n rest : Str} (hn : Name n) :
    Builtins.trimTail (n.reverse ++ '/' :: rest) = n.reverse ++ '/' :: rest := by
  obtain ⟨h1, h2, h3, _⟩ := hn
  rcases hr : n.reverse with _ | ⟨c, t⟩
  · simp at hr
    exact absurd hr h1
  · have hc : c ≠ '/' := by
      rintro rfl
      exact h2 (List.mem_reverse.mp (by rw [hr]; simp))
    by_cases hd : c = '.'
    · subst hd
      rcases t with _ | ⟨c2, t⟩
      · exfalso
        apply h3
        have := congrArg List.reverse hr
        simpa using this
      · have hc2 : c2 ≠ '/' := by
          rintro rfl
          exact h2 (List.mem_reverse.mp (by rw [hr]; simp))
        rw [List.cons_append, List.cons_append, Builtins.trimTail.eq_3]
        · intro _ _ h
          simp at h
        · intro _ h
          simp at h
          exact hc2 h.1
    · rw [List.cons_append, Builtins.trimTail.eq_3]
      · intro _ _ h
        simp at h
        exact hc h.1
      · intro _ h
        simp at h
        exact hd h.1

theorem render_snoc (p : List Str) (n : Str) :
    render (p ++ [n]) = p.flatMap ('/' :: ·) ++ '/' :: n := by
  cases p <;> simp [render]

theorem dropWhile_name {n rest : Str} (hn : '/' ∉ n) :
    (n.reverse ++ '/' :: rest).dropWhile (fun c => decide (c ≠ '/')) = '/' :: rest := by
  rw [List.dropWhile_append_of_pos]
  · simp
  · intro x hx
    rw [List.mem_reverse] at hx
    exact decide_eq_true fun h => hn (h ▸ hx)

theorem parent_render {p : List Str} {n : Str} (hp : ∀ x ∈ p, Name x) (hn : Name n) :
    Builtins.pathParent (render (p ++ [n])) = some (render p) := by
  have hr : (render (p ++ [n])).reverse = n.reverse ++ '/' :: (p.flatMap ('/' :: ·)).reverse := by
    rw [render_snoc]
    simp
  have hne : n.reverse ++ '/' :: (p.flatMap ('/' :: ·)).reverse ≠ [] := by simp
  have hne2 : n.reverse ++ '/' :: (p.flatMap ('/' :: ·)).reverse ≠ c!"/" := by
    intro h
    rcases hx : n.reverse with _ | ⟨c, t⟩
    · simp at hx
      exact hn.1 hx
    · rw [hx] at h
      simp at h
  rw [Builtins.pathParent, hr, trimTail_name hn]
  simp only [hne, hne2, or_self, if_false, dropWhile_name hn.2.1]
  rcases List.eq_nil_or_concat p with rfl | ⟨q, m, rfl⟩
  · simp [Builtins.trimTail, render]
  · have hm : Name m := hp m (by simp)
    have e : (List.flatMap (fun x => '/' :: x) (q ++ [m])).reverse =
        m.reverse ++ '/' :: (q.flatMap ('/' :: ·)).reverse := by simp
    rw [List.concat_eq_append, e]
    rcases hx : m.reverse ++ '/' :: (q.flatMap ('/' :: ·)).reverse with _ | ⟨c, t⟩
    · simp at hx
    · rw [Builtins.trimTail, ← hx, trimTail_name hm, render_snoc]
      simp

theorem parent_of {p : List Str} (hp0 : p ≠ []) (hp : ∀ x ∈ p, Name x) :
    Builtins.pathParent (render p) = some (render p.dropLast) := by
  rw [← List.dropLast_append_getLast hp0, parent_render
    (fun x hx => hp x (List.mem_of_mem_dropLast hx)) (hp _ (List.getLast_mem hp0)),
    List.dropLast_concat]

section

variable {W : Type} {P : Plat} {H : Host W} {L : Lib} {n : Nat} {env env1 env2 : Env}
  {w w1 w2 : W} {fs : W → List Str → Option Entry}

theorem follow_str (s : Str) {r : List Str} (hr : r ≠ []) : follow (.str s) r = none := by
  cases r with
  | nil => exact absurd rfl hr
  | cons n r => rfl

theorem pictures_file (hF : FileTree H fs) {p : List Str} {b : List UInt8}
    (h : fs w p = some (.file b)) : Pictures (fs w) p (.str (render p)) := by
  intro r _
  by_cases hr : r = []
  · subst hr
    simp only [List.append_nil, h]
    rfl
  · rw [below_file hF h hr, follow_str _ hr]
    rfl

theorem run_treeEntries (hF : FileTree H fs) {ev0 : Expr → M W Expr} {p : List Str}
    (hp : ∀ n ∈ p, Name n) {sub : Str → BProg (BMap Expr)} :
    ∀ (ns : List Str), (∀ n ∈ ns, (fs w (p ++ [n])).isSome) →
      (∀ n, fs w (p ++ [n]) = some .dir → ∃ m,
        (sub (render (p ++ [n]))).run H ev0 env w = (.ok m, env, w) ∧
          Pictures (fs w) (p ++ [n]) (.map m)) →
      ∀ t : BMap Expr, ∃ t', (Builtins.treeEntries sub (render p) ns t).run H ev0 env w =
          (.ok t', env, w) ∧ (∀ k, k ∉ ns → t'.get? k = t.get? k) ∧
          ∀ n ∈ ns, ∃ v, t'.get? n = some v ∧ Pictures (fs w) (p ++ [n]) v
  | [], _, _, t => ⟨t, rfl, fun _ _ => rfl, by simp⟩
  | n :: ns, hns, hsub, t => by
    have hsome := hns n (by simp)
    have hname : Name n := hF.names w _ hsome n (by simp)
    have hpn := names_append hp (q := [n]) (by simpa using hname)
    have key : ∃ v, Pictures (fs w) (p ++ [n]) v ∧
        (Builtins.treeEntries sub (render p) (n :: ns) t).run H ev0 env w =
          (Builtins.treeEntries sub (render p) ns (t.insert n v)).run H ev0 env w := by
      rw [Builtins.treeEntries, join_render hp hname, BProg.run_bind]
      rcases he : fs w (p ++ [n]) with _ | b | _
      · rw [he] at hsome
        cases hsome
      · refine ⟨.str (render (p ++ [n])), pictures_file hF he, ?_⟩
        rw [M.bind_ok (run_askBool ((hF.isDir _ w hpn).2 (by rw [he]; simp))), if_neg (by simp)]
      · obtain ⟨m, hm, hpic⟩ := hsub n he
        refine ⟨.map m, hpic, ?_⟩
        rw [M.bind_ok (run_askBool ((hF.isDir _ w hpn).1 he)), if_pos rfl, BProg.run_bind,
          M.bind_ok hm]
    obtain ⟨v, hv, hstep⟩ := key
    obtain ⟨t', h1, h2, h3⟩ := run_treeEntries hF hp ns
      (fun x hx => hns x (List.mem_cons_of_mem _ hx)) hsub (t.insert n v)
    refine ⟨t', by rw [hstep, h1], ?_, ?_⟩
    · intro k hk
      rw [List.mem_cons, not_or] at hk
      rw [h2 k hk.2, BMap.get?_insert, if_neg (Ne.symm hk.1)]
    · intro x hx
      by_cases hmem : x ∈ ns
      · exact h3 x hmem
      · have : x = n := (List.mem_cons.mp hx).resolve_right hmem
        subst this
        exact ⟨v, by rw [h2 x hmem, BMap.get?_insert, if_pos rfl], hv⟩

/-- Every directory at and below `p` can be listed. -/
def Listable (H : Host W) (fs : W → List Str → Option Entry) (w : W) (p : List Str) : Prop :=
  ∀ r, fs w (p ++ r) = some .dir → ∀ e w', H.io (.readDir (render (p ++ r))) w ≠ (.err e, w')

/-- Counting `k` down once for every level of directories at and below `p` stays in the range of the
integers, or overflows are not checked. -/
def CountsDown (P : Plat) (f : List Str → Option Entry) (p : List Str) : Option I64 → Prop
  | none => True
  | some k => P.overflowChecks = true → ∀ r, f (p ++ r) = some .dir → -2 ^ 63 ≤ k.val - r.length

theorem run_dirTree (hF : FileTree H fs) {ev0 : Expr → M W Expr} :
    ∀ (fuel : Nat) (p : List Str) (k : Option I64), p ≠ [] → fs w p = some .dir →
      Listable H fs w p → (∀ r, fs w (p ++ r) = some .dir → r.length < fuel) →
      CountsDown P (fs w) p k →
      ∃ m, (Builtins.dirTree P fuel (render p) k).run H ev0 env w = (.ok m, env, w) ∧
        Pictures (fs w) p (.map m)
  | 0, p, _, _, hd, _, hdep, _ => by
    have := hdep [] (by simpa using hd)
    simp at this
  | fuel + 1, p, k, hp0, hd, hl, hdep, hk => by
    have hp := hF.names w p (by rw [hd]; rfl)
    rw [Builtins.dirTree, parent_of hp0 hp]
    simp only [BProg.run_bind, BProg.run_ask]
    rcases hF.readDir p w hd with ⟨e, h⟩ | ⟨ns, h, _, hns⟩
    · exact absurd h (by
        have := hl [] (by simpa using hd) e w
        simpa using this)
    · rw [M.bind_ok (io_ok h)]
      simp only
      obtain ⟨t', h1, h2, h3⟩ := run_treeEntries (env := env) (ev0 := ev0) (w := w) hF hp
        (sub := fun path => match (generalizing := false) k with
          | none => Builtins.dirTree P fuel path none
          | some d => do
            let d' ← BProg.lift (Builtins.arith P (d.val - 1))
            Builtins.dirTree P fuel path (some d')) ns (fun n hn => (hns n).mp hn) (by
        intro n hn
        have hl' : Listable H fs w (p ++ [n]) := by
          intro r hr
          have := hl (n :: r) (by simpa using hr)
          simpa using this
        have hdep' : ∀ r, fs w (p ++ [n] ++ r) = some .dir → r.length < fuel := by
          intro r hr
          have := hdep (n :: r) (by simpa using hr)
          simp at this
          omega
        cases k with
        | none =>
          exact run_dirTree hF fuel (p ++ [n]) none (by simp) hn hl' hdep' trivial
        | some d =>
          simp only [BProg.run_bind]
          by_cases hr : -2 ^ 63 ≤ d.val - 1
          · have hi : ∃ i : I64, I64.ofInt? (d.val - 1) = some i ∧ i.val = d.val - 1 := by
              have := d.hi
              exact ⟨⟨d.val - 1, by omega, by omega⟩, by rw [I64.ofInt?, dif_pos (by omega)], rfl⟩
            obtain ⟨i, hi, hiv⟩ := hi
            rw [Builtins.arith, hi]
            obtain ⟨m, h4, h5⟩ := run_dirTree hF fuel (p ++ [n]) (some i) (by simp) hn hl' hdep' (by
              intro hc r hr
              have := hk hc (n :: r) (by simpa using hr)
              simp at this
              omega)
            exact ⟨m, h4, h5⟩
          · have hc : P.overflowChecks = false := by
              rcases hb : P.overflowChecks with _ | _
              · rfl
              · have := hk hb [n] hn
                simp at this
                omega
            have ha : ∃ i, Builtins.arith P (d.val - 1) = .ok i := by
              rw [Builtins.arith, hc]
              split
              · exact ⟨_, rfl⟩
              · exact ⟨_, rfl⟩
            obtain ⟨i, hi⟩ := ha
            rw [hi]
            obtain ⟨m, h4, h5⟩ := run_dirTree hF fuel (p ++ [n]) (some i) (by simp) hn hl' hdep' (by
              intro hc'
              rw [hc] at hc'
              cases hc')
            exact ⟨m, h4, h5⟩)
        (BMap.insert (BMap.insert [] c!"." (.str (render p))) c!".." (.str (render p.dropLast)))
      refine ⟨t', h1, ?_⟩
      have hnot : c!"." ∉ ns ∧ c!".." ∉ ns := by
        constructor <;> intro hm
        · exact (hF.names w _ ((hns _).mp hm) _ (by simp : c!"." ∈ p ++ [c!"."])).2.2.1 rfl
        · exact (hF.names w _ ((hns _).mp hm) _ (by simp : c!".." ∈ p ++ [c!".."])).2.2.2 rfl
      intro r hr
      cases r with
      | nil =>
        simp only [List.append_nil, hd]
        refine ⟨t', rfl, ?_, ?_⟩
        · rw [h2 _ hnot.1, BMap.get?_insert, if_neg (by decide), BMap.get?_insert, if_pos rfl]
        · rw [h2 _ hnot.2, BMap.get?_insert, if_pos rfl]
      | cons x r =>
        obtain ⟨hx1, hx2⟩ := hr x (by simp)
        by_cases hmem : x ∈ ns
        · obtain ⟨v, hv, hpic⟩ := h3 x hmem
          have := hpic r fun y hy => hr y (List.mem_cons_of_mem _ hy)
          rw [follow, hv]
          simpa using this
        · have hnone : fs w (p ++ [x]) = none := by
            rcases hx : fs w (p ++ [x]) with _ | e
            · rfl
            · exact absurd ((hns x).mpr (by rw [hx]; rfl)) hmem
          have := below_none hF hnone r
          rw [List.append_assoc] at this
          rw [show p ++ x :: r = p ++ ([x] ++ r) from rfl, this, follow, h2 x hmem,
            BMap.get?_insert, if_neg (Ne.symm hx2), BMap.get?_insert,
            if_neg (Ne.symm hx1)]
          rfl

/-- The call with a path and, before it, possibly an integer. -/
def treeArgs (k : Option I64) (a : Expr) : List Expr :=
  match k with
  | none => [a]
  | some k => [.int k, a]

theorem eval_tree (hs : Std env) {a : Expr} {x : Str} (k : Option I64)
    (ha : evalN P H (stdB P L) n a env w = (.ok (.str x), env1, w1)) (hn : 0 < n) :
    evalN P H (stdB P L) (n + 1) (call c!"fs" c!"tree" (treeArgs k a)) env w =
      ((Builtins.dirTree P P.stackDepth (pathJoin env.getCwd x) k).run H
        (evalN P H (stdB P L) n) >>= fun t => pure (Expr.map t)) env1 w1 := by
  obtain ⟨m, rfl⟩ : ∃ m, n = m + 1 := ⟨n - 1, by omega⟩
  cases k with
  | none =>
    lib hs, Init.fsM
    brun [Builtins.treeB, Builtins.strOrSym, treeArgs, ha]
  | some k =>
    lib hs, Init.fsM
    have hk : evalN P H (stdB P L) (m + 1) (.int k) env w = (.ok (.int k), env, w) := rfl
    brun [Builtins.treeB, Builtins.strOrSym, treeArgs, ha, hk]

/-- C93, `fs@tree`: for a directory tree of any shape, the result is a picture of everything at and
below the directory, and of nothing else, whatever the integer given as greatest depth; nothing is
changed. -/
theorem C93_tree (hs : Std env) (hF : FileTree H fs) {a : Expr} {x : Str} {p : List Str}
    (k : Option I64)
    (ha : evalN P H (stdB P L) n a env w = (.ok (.str x), env1, w1)) (hn : 0 < n)
    (hx : Resolved env.getCwd x (render p)) (hp : p ≠ []) (hd : fs w1 p = some .dir)
    (hl : Listable H fs w1 p) (hdep : ∀ r, fs w1 (p ++ r) = some .dir → r.length < P.stackDepth)
    (hk : CountsDown P (fs w1) p k) :
    ∃ v, evalN P H (stdB P L) (n + 1) (call c!"fs" c!"tree" (treeArgs k a)) env w =
        (.ok v, env1, w1) ∧ Pictures (fs w1) p v := by
  rw [eval_tree hs k ha hn, hx.join]
  obtain ⟨m, h1, h2⟩ := run_dirTree (P := P) (env := env1) (ev0 := evalN P H (stdB P L) n) hF
    P.stackDepth p k hp hd hl hdep hk
  exact ⟨.map m, M.bind_ok h1, h2⟩

theorem treeEntries_congr {ev0 : Expr → M W Expr} {dir : Str} {sub sub' : Str → BProg (BMap Expr)}
    (h : ∀ path, (sub path).run H ev0 = (sub' path).run H ev0) :
    ∀ (ns : List Str) (t : BMap Expr), (Builtins.treeEntries sub dir ns t).run H ev0 =
      (Builtins.treeEntries sub' dir ns t).run H ev0
  | [], _ => rfl
  | n :: ns, t => by
    rw [Builtins.treeEntries, Builtins.treeEntries, BProg.run_bind, BProg.run_bind]
    congr 1
    funext b
    cases b with
    | false =>
      rw [if_neg (by simp), if_neg (by simp)]
      exact treeEntries_congr h ns _
    | true =>
      rw [if_pos rfl, if_pos rfl, BProg.run_bind, BProg.run_bind, h]
      congr 1
      funext m
      exact treeEntries_congr h ns _

theorem dirTree_depth {ev0 : Expr → M W Expr} : ∀ (fuel : Nat) (dir : Str) (k : I64),
    (P.overflowChecks = true → -2 ^ 63 ≤ k.val - fuel) →
    (Builtins.dirTree P fuel dir (some k)).run H ev0 =
      (Builtins.dirTree P fuel dir none).run H ev0
  | 0, _, _, _ => rfl
  | fuel + 1, dir, k, hk => by
    rw [Builtins.dirTree, Builtins.dirTree]
    cases Builtins.pathParent dir with
    | none => rfl
    | some parent =>
      simp only [BProg.run_bind]
      congr 1
      funext r
      cases r with
      | strs names =>
        refine treeEntries_congr (fun path => ?_) _ _
        have ha : ∃ i : I64, Builtins.arith P (k.val - 1) = .ok i ∧
            (P.overflowChecks = true → -2 ^ 63 ≤ i.val - fuel) := by
          rw [Builtins.arith]
          have := k.hi
          by_cases h : -9223372036854775808 ≤ k.val - 1
          · rw [I64.ofInt?, dif_pos ⟨h, by omega⟩]
            refine ⟨_, rfl, fun hc => ?_⟩
            have := hk hc
            simp only
            omega
          · rw [I64.ofInt?, dif_neg (by omega)]
            cases hc : P.overflowChecks with
            | false => exact ⟨_, rfl, by simp⟩
            | true =>
              have := hk hc
              omega
        obtain ⟨i, hi, hb⟩ := ha
        simp only [BProg.run_bind]
        rw [hi]
        exact dirTree_depth fuel path i hb
      | _ => rfl

/-- C93, the greatest depth has no effect at all, in any world (the documentation promises that it
limits the depth): the integer can be left out. -/
theorem C93_depth_ignored (hs : Std env) {a : Expr} {x : Str} (k : I64)
    (ha : evalN P H (stdB P L) n a env w = (.ok (.str x), env1, w1)) (hn : 0 < n)
    (hk : P.overflowChecks = true → -2 ^ 63 ≤ k.val - P.stackDepth) :
    evalN P H (stdB P L) (n + 1) (call c!"fs" c!"tree" [.int k, a]) env w =
      evalN P H (stdB P L) (n + 1) (call c!"fs" c!"tree" [a]) env w := by
  have h1 := eval_tree (P := P) (L := L) hs (some k) ha hn
  have h2 := eval_tree (P := P) (L := L) hs none ha hn
  simp only [treeArgs] at h1 h2
  rw [h1, h2, dirTree_depth _ _ k hk]

/-- C93, a path that cannot be listed (such as a directory without permission, a file, and a path with
nothing) is shown like an empty directory. -/
theorem C93_unlisted (hs : Std env) {a : Expr} {x : Str} {p : List Str} {e : IOErr}
    (k : Option I64)
    (ha : evalN P H (stdB P L) n a env w = (.ok (.str x), env1, w1)) (hn : 0 < n)
    (hx : Resolved env.getCwd x (render p)) (hp : p ≠ []) (hnm : ∀ n ∈ p, Name n)
    (hl : H.io (.readDir (render p)) w1 = (.err e, w2)) (hP : 0 < P.stackDepth) :
    evalN P H (stdB P L) (n + 1) (call c!"fs" c!"tree" (treeArgs k a)) env w =
      (.ok (.map [(c!".", .str (render p)), (c!"..", .str (render p.dropLast))]), env1, w2) := by
  rw [eval_tree hs k ha hn, hx.join]
  obtain ⟨d, hd⟩ : ∃ d, P.stackDepth = d + 1 := ⟨P.stackDepth - 1, by omega⟩
  rw [hd, Builtins.dirTree, parent_of hp hnm]
  simp only [BProg.run_bind, BProg.run_ask]
  rw [M.bind_ok (M.bind_ok (io_ok hl))]
  rfl

/-- C93, at the root `fs@tree` crashes. -/
theorem C93_root_crashes (hs : Std env) {a : Expr} {x : Str} (k : Option I64)
    (ha : evalN P H (stdB P L) n a env w = (.ok (.str x), env1, w1)) (hn : 0 < n)
    (hx : Resolved env.getCwd x c!"/") :
    evalN P H (stdB P L) (n + 1) (call c!"fs" c!"tree" (treeArgs k a)) env w =
      (.panic, env1, w1) := by
  rw [eval_tree hs k ha hn, hx.join]
  cases P.stackDepth with
  | zero => rfl
  | succ d => rfl

end

theorem disk1_dirs {r : List Str} (h : disk1.at_ ([c!"d"] ++ r) = some .dir) : r.length < 2 := by
  rw [disk1] at h
  simp only [Disk.put, Disk.mkdir] at h
  split at h
  · cases h
  · split at h
    · cases h
    · split at h
      · rename_i hp
        have := hp.length_le
        simp at this
        omega
      · simp [disk0] at h

/-- the picture of `/d`, by the theorem -/
example : ∃ v, (diskRun (call c!"fs" c!"tree" [.int (I64.lit 0), .str c!"/d"]) disk1).1 = .ok v ∧
    Pictures disk1.at_ [c!"d"] v := by
  obtain ⟨v, h1, h2⟩ := C93_tree (P := Demo.plat) (L := Demo.lib) (n := 1) (w := disk1)
    (a := .str c!"/d") (x := c!"/d") (p := [c!"d"]) demo_std disk_tree (some (I64.lit 0)) rfl (by decide)
    (.absolute _ _) (by decide) rfl (fun r _ e w' h => by simp [diskHost] at h)
    (fun r hr => Nat.lt_of_lt_of_le (disk1_dirs hr) (by decide)) (by
      intro _ r hr
      have := disk1_dirs hr
      rw [show (I64.lit 0).val = 0 from rfl]
      omega)
  exact ⟨v, congrArg Prod.fst h1, h2⟩

/-- that picture -/
example : (diskRun (call c!"fs" c!"tree" [.int (I64.lit 0), .str c!"/d"]) disk1).1 = .ok (.map [
    (c!".", .str c!"/d"), (c!"..", .str c!"/"),
    (c!"e", .map [(c!".", .str c!"/d/e"), (c!"..", .str c!"/d"), (c!"y", .str c!"/d/e/y")]),
    (c!"x", .str c!"/d/x")]) := rfl

example : (diskRun (call c!"fs" c!"tree" [.str c!"/"]) disk1).1 = .panic := rfl

/-! ### Instances: the hypotheses can be met -/

example := C93_depth_ignored (P := Demo.plat) (L := Demo.lib) (H := diskHost) (n := 1) (w := disk1) demo_std
  (a := .str c!"/d") (.lit 0) rfl (by decide) (fun _ => by decide)

end Dune.Props
