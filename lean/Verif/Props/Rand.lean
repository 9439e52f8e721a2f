import Mathlib.Data.List.Perm.Basic
import Mathlib.Data.List.Nodup
import Mathlib.Data.Nat.Factorial.Basic
import Verif.Proof.Lib

/-! C76: the module `rand`. -/

namespace Dune.Props

open Spec

/-- A source of random numbers answers with a number in the range it is asked for. -/
structure RandomSource {W : Type} (H : Host W) : Prop where
  int : ∀ (l h : I64) (w : W), l.val < h.val →
    ∃ (n : I64) (w' : W), H.io (.randomInt l h) w = (.int n, w') ∧ l.val ≤ n.val ∧ n.val < h.val
  index : ∀ (n : Nat) (w : W), 0 < n → ∃ k w', H.io (.randomIndex n) w = (.nat k, w') ∧ k < n

/-- The source that gives these answers, one after the other. -/
def scripted : Host (List Nat) where
  io op w :=
    match op, w with
    | .randomIndex _, k :: ks => (.nat k, ks)
    | .randomIndex _, [] => (.nat 0, [])
    | _, _ => (.unit, w)

/-- Possible answers for `shuffle`: one of `i + 1` numbers, then one of `i`, ..., one of two. -/
inductive Answers : Nat → List Nat → Prop
  | nil : Answers 0 []
  | cons {i k : Nat} {ks : List Nat} : k ≤ i + 1 → Answers i ks → Answers (i + 1) (k :: ks)

/-- There are `(i + 1)!` of them. -/
def allAnswers : Nat → List (List Nat)
  | 0 => [[]]
  | i + 1 => (List.range (i + 2)).flatMap fun k => (allAnswers i).map (k :: ·)

section

variable {W : Type} {P : Plat} {H : Host W} {L : Lib} {n : Nat} {env env1 env2 : Env}
  {w w1 w2 : W}

/-! ### Helper lemmas -/

theorem swapAt_perm {l : List Expr} {i j : Nat} (hi : i < l.length) (hj : j < l.length) :
    Builtins.swapAt l i j = some ((l.set i l[j]).set j l[i]) ∧
      ((l.set i l[j]).set j l[i]).Perm l := by
  constructor
  · simp [Builtins.swapAt, List.getElem?_eq_getElem hi, List.getElem?_eq_getElem hj]
  · exact List.set_set_perm hi hj

theorem run_index (hR : RandomSource H) {ev0 : Expr → M W Expr} {k : Nat} (hk : 0 < k) :
    ∃ i w', (Builtins.index k).run H ev0 env w = (.ok i, env, w') ∧ i < k := by
  obtain ⟨i, w', h, hi⟩ := hR.index k w hk
  refine ⟨i, w', ?_, hi⟩
  brun [Builtins.index, hk, M.io, h]

theorem run_shuffle (hR : RandomSource H) {ev0 : Expr → M W Expr} : ∀ (i : Nat) (l : List Expr) (w : W),
    (l = [] ∧ i = 0 ∨ i < l.length) → ∃ l' w',
      (Builtins.shuffleLoop i l).run H ev0 env w = (.ok l', env, w') ∧ l'.Perm l
  | 0, l, w, _ => ⟨l, w, rfl, .refl _⟩
  | i + 1, l, w, h => by
    have h : i + 1 < l.length := by rcases h with ⟨_, h⟩ | h <;> omega
    obtain ⟨k, w', hk, hlt⟩ := run_index (H := H) (env := env) (w := w) hR (ev0 := ev0)
      (show 0 < i + 2 by omega)
    obtain ⟨hs, hp⟩ := swapAt_perm h (show k < l.length by omega)
    obtain ⟨l', w2, hr, hp'⟩ := run_shuffle hR (ev0 := ev0) i ((l.set (i + 1) l[k]).set k l[i + 1]) w'
      (.inr (by simp; omega))
    refine ⟨l', w2, ?_, hp'.trans hp⟩
    simp only [Builtins.shuffleLoop, BProg.run_bind]
    rw [M.bind_ok hk]
    simp only [hs, hr]

theorem run_scripted {ev0 : Expr → M (List Nat) Expr} {i k : Nat} {l : List Expr} {ks : List Nat} :
    (Builtins.shuffleLoop (i + 1) l).run scripted ev0 env (k :: ks) =
      match Builtins.swapAt l (i + 1) k with
      | some l' => (Builtins.shuffleLoop i l').run scripted ev0 env ks
      | none => (.panic, env, ks) := by
  simp only [Builtins.shuffleLoop, BProg.run_bind]
  rw [M.bind_ok (a := k) (env' := env) (w' := ks) (by
    have : 0 < i + 2 := by omega
    brun [Builtins.index, this, M.io, scripted])]
  cases Builtins.swapAt l (i + 1) k <;> rfl

/-- the last of the positions in question, after the exchange -/
theorem swap_last {xs rest : List Expr} {i k : Nat} (hl : xs.length = i + 2) (hk : k < i + 2) :
    ∃ xs' : List Expr, xs'.length = i + 1 ∧
      Builtins.swapAt (xs ++ rest) (i + 1) k = some (xs' ++ xs[k] :: rest) ∧
      (xs' ++ [xs[k]]).Perm xs := by
  let l := (xs.set (i + 1) (xs[k]'(by omega))).set k (xs[i + 1]'(by omega))
  have hne : l ≠ [] := by
    intro h
    have := congrArg List.length h
    simp [l] at this
    rw [this] at hl
    simp at hl
  have hlast : l.getLast hne = xs[k]'(by omega) := by
    rw [List.getLast_eq_getElem]
    simp only [l, List.length_set, hl]
    rw [List.getElem_set, List.getElem_set]
    split
    · rename_i h
      have : k = i + 1 := by omega
      subst this
      rfl
    · rw [if_pos (by omega)]
  have hsplit : l = l.dropLast ++ [xs[k]'(by omega)] := by
    rw [← hlast, List.dropLast_append_getLast]
  refine ⟨l.dropLast, by simp [l, hl], ?_, ?_⟩
  · have h1 : i + 1 < (xs ++ rest).length := by simp [hl]; omega
    have h2 : k < (xs ++ rest).length := by simp [hl]; omega
    rw [(swapAt_perm h1 h2).1]
    have e : ((xs ++ rest).set (i + 1) (xs ++ rest)[k]).set k (xs ++ rest)[i + 1] = l ++ rest := by
      rw [List.getElem_append_left (by omega), List.getElem_append_left (by omega),
        List.set_append_left _ _ (by omega), List.set_append_left _ _ (by simp [hl]; omega)]
    rw [e]
    conv => lhs; rw [hsplit]
    simp
  · rw [← hsplit]
    exact List.set_set_perm (by omega) (by omega)

theorem shuffle_reaches {ev0 : Expr → M (List Nat) Expr} : ∀ (i : Nat) (xs ys rest : List Expr),
    xs.length = i + 1 → ys.Perm xs → ∃ ks, Answers i ks ∧
      (Builtins.shuffleLoop i (xs ++ rest)).run scripted ev0 env ks = (.ok (ys ++ rest), env, [])
  | 0, xs, ys, rest, hl, hp => by
    refine ⟨[], .nil, ?_⟩
    match xs, hl with
    | [x], _ => rw [List.perm_singleton.1 hp]; rfl
  | i + 1, xs, ys, rest, hl, hp => by
    have hly : ys.length = i + 2 := by rw [hp.length_eq, hl]
    have hne : ys ≠ [] := by intro h; simp [h] at hly
    obtain ⟨ys', y, rfl⟩ : ∃ ys' y, ys = ys' ++ [y] :=
      ⟨ys.dropLast, ys.getLast hne, (List.dropLast_append_getLast hne).symm⟩
    have hy : y ∈ xs := hp.mem_iff.1 (by simp)
    obtain ⟨k, hk, rfl⟩ := List.getElem_of_mem hy
    obtain ⟨xs', hl', hs, hp'⟩ := swap_last (rest := rest) hl (show k < i + 2 by omega)
    have hperm : ys'.Perm xs' := by
      have := hp.trans hp'.symm
      exact (List.perm_append_right_iff _).1 this
    obtain ⟨ks, ha, hr⟩ := shuffle_reaches (ev0 := ev0) i xs' ys' (xs[k] :: rest) hl' hperm
    refine ⟨k :: ks, .cons (by omega) ha, ?_⟩
    rw [run_scripted, hs]
    simpa using hr

theorem shuffle_once {ev0 : Expr → M (List Nat) Expr} : ∀ (i : Nat) (xs ys rest : List Expr)
    (ks ks' : List Nat), xs.length = i + 1 → ys.length = i + 1 → xs.Nodup →
    Answers i ks → Answers i ks' →
    (Builtins.shuffleLoop i (xs ++ rest)).run scripted ev0 env ks = (.ok (ys ++ rest), env, []) →
    (Builtins.shuffleLoop i (xs ++ rest)).run scripted ev0 env ks' = (.ok (ys ++ rest), env, []) →
    ks = ks'
  | 0, _, _, _, _, _, _, _, _, .nil, .nil, _, _ => rfl
  | i + 1, xs, ys, rest, _, _, hl, hly, hn, .cons (k := k) (ks := ks) hk ha,
      .cons (k := k') (ks := ks') hk' ha', h, h' => by
    have hne : ys ≠ [] := by intro h; simp [h] at hly
    obtain ⟨ys', y, rfl⟩ : ∃ ys' y, ys = ys' ++ [y] :=
      ⟨ys.dropLast, ys.getLast hne, (List.dropLast_append_getLast hne).symm⟩
    -- the position `i + 1` is not touched any more
    have keep : ∀ (j : Nat) (us vs l' : List Expr) (js js' : List Nat), us.length = j + 1 →
        Answers j js →
        (Builtins.shuffleLoop j (us ++ vs)).run scripted ev0 env js = (.ok l', env, js') →
        ∃ us', us'.length = us.length ∧ l' = us' ++ vs := by
      intro j
      induction j with
      | zero =>
        intro us vs l' js js' _ _ h
        simp only [Builtins.shuffleLoop, BProg.run_ret, M.pure_apply, Prod.mk.injEq,
          Outcome.ok.injEq] at h
        exact ⟨us, rfl, h.1.symm⟩
      | succ j ih =>
        intro us vs l' js js' hu hj h
        cases hj with
        | @cons _ m ms hm hms =>
          obtain ⟨us1, hu1, hs1, _⟩ := swap_last (rest := vs) hu (show m < j + 2 by omega)
          rw [run_scripted, hs1] at h
          obtain ⟨us2, hu2, rfl⟩ := ih us1 _ l' ms js' hu1 hms h
          exact ⟨us2 ++ [us[m]], by simp [hu2, hu1, hu], by simp⟩
    obtain ⟨xs1, h1, hs1, hp1⟩ := swap_last (rest := rest) hl (show k < i + 2 by omega)
    obtain ⟨xs2, h2, hs2, hp2⟩ := swap_last (rest := rest) hl (show k' < i + 2 by omega)
    rw [run_scripted, hs1] at h
    rw [run_scripted, hs2] at h'
    have e1 : xs[k] = y := by
      obtain ⟨us, hu, he⟩ := keep i xs1 _ _ _ _ h1 ha h
      have := congrArg (fun l => l[i + 1]?) he
      simp only [List.append_assoc, List.singleton_append] at this
      rw [List.getElem?_append_right (by simp at hly; omega),
        List.getElem?_append_right (by omega)] at this
      have hz : i + 1 - ys'.length = 0 := by simp at hly; omega
      have hz' : i + 1 - us.length = 0 := by omega
      rw [hz, hz'] at this
      simpa using this.symm
    have e2 : xs[k'] = y := by
      obtain ⟨us, hu, he⟩ := keep i xs2 _ _ _ _ h2 ha' h'
      have := congrArg (fun l => l[i + 1]?) he
      simp only [List.append_assoc, List.singleton_append] at this
      rw [List.getElem?_append_right (by simp at hly; omega),
        List.getElem?_append_right (by omega)] at this
      have hz : i + 1 - ys'.length = 0 := by simp at hly; omega
      have hz' : i + 1 - us.length = 0 := by omega
      rw [hz, hz'] at this
      simpa using this.symm
    have hkk : k = k' := (List.Nodup.getElem_inj_iff hn).1 (e1.trans e2.symm)
    subst hkk
    have hx : xs1 = xs2 := by
      have := hs1.symm.trans hs2
      simp only [Option.some.injEq] at this
      exact List.append_cancel_right this
    subst hx
    have hn1 : xs1.Nodup := by
      have := hp1.nodup_iff.2 hn
      exact (List.nodup_append.1 this).1
    have := shuffle_once (ev0 := ev0) i xs1 ys' (xs[k] :: rest) ks ks' h1 (by simp at hly; omega)
      hn1 ha ha' (by simpa [e1] using h) (by simpa [e1] using h')
    rw [this]

/-! ### Numbers and elements -/

/-- C76.  `rand@int lo hi` is an integer from `lo` up to, but not including, `hi`. -/
theorem C76_int (hs : Std env) (hR : RandomSource H) {a b : Expr} {lo hi : I64}
    (ha : evalN P H (stdB P L) n a env w = (.ok (.int lo), env1, w1))
    (hb : evalN P H (stdB P L) n b env1 w1 = (.ok (.int hi), env2, w2)) (h : lo.val < hi.val) :
    ∃ (r : I64) (w' : W), lo.val ≤ r.val ∧ r.val < hi.val ∧
      evalN P H (stdB P L) (n + 1) (call c!"rand" c!"int" [a, b]) env w = (.ok (.int r), env2, w') := by
  obtain ⟨r, w', hr, h1, h2⟩ := hR.int lo hi w2 h
  refine ⟨r, w', h1, h2, ?_⟩
  lib hs, Init.randM
  brun [Builtins.randIntB, ha, hb, h, M.io, hr]

/-- C76.  An empty range crashes the shell. -/
theorem C76_int_empty (hs : Std env) {a b : Expr} {lo hi : I64}
    (ha : evalN P H (stdB P L) n a env w = (.ok (.int lo), env1, w1))
    (hb : evalN P H (stdB P L) n b env1 w1 = (.ok (.int hi), env2, w2)) (h : hi.val ≤ lo.val) :
    evalN P H (stdB P L) (n + 1) (call c!"rand" c!"int" [a, b]) env w = (.panic, env2, w2) := by
  have h : ¬ lo.val < hi.val := by omega
  lib hs, Init.randM
  brun [Builtins.randIntB, ha, hb, h]

/-- C76.  `rand@choose list` is an element of the list. -/
theorem C76_choose (hs : Std env) (hR : RandomSource H) {a : Expr} {l : List Expr}
    (ha : evalN P H (stdB P L) n a env w = (.ok (.list l), env1, w1)) (hl : l ≠ []) :
    ∃ v ∈ l, ∃ w', evalN P H (stdB P L) (n + 1) (call c!"rand" c!"choose" [a]) env w =
      (.ok v, env1, w') := by
  obtain ⟨k, w', hk, hlt⟩ := run_index (H := H) (env := env1) (w := w1) hR
    (ev0 := evalN P H (stdB P L) n) (List.length_pos_iff.2 hl)
  refine ⟨l[k], List.getElem_mem _, w', ?_⟩
  lib hs, Init.randM
  brun [Builtins.chooseB, ha, hk, hlt]

/-- C76.  Choosing from an empty list crashes the shell. -/
theorem C76_choose_empty (hs : Std env) {a : Expr}
    (ha : evalN P H (stdB P L) n a env w = (.ok (.list []), env1, w1)) :
    evalN P H (stdB P L) (n + 1) (call c!"rand" c!"choose" [a]) env w = (.panic, env1, w1) := by
  lib hs, Init.randM
  brun [Builtins.chooseB, ha, Builtins.index]

/-! ### Shuffling -/

/-- C76.  `rand@shuffle list` has the same elements, each as often, in some order. -/
theorem C76_shuffle (hs : Std env) (hR : RandomSource H) {a : Expr} {l : List Expr}
    (ha : evalN P H (stdB P L) n a env w = (.ok (.list l), env1, w1)) :
    ∃ l' w', l'.Perm l ∧ evalN P H (stdB P L) (n + 1) (call c!"rand" c!"shuffle" [a]) env w =
      (.ok (.list l'), env1, w') := by
  obtain ⟨l', w', h, hp⟩ := run_shuffle (H := H) (env := env1) hR (ev0 := evalN P H (stdB P L) n)
    (l.length - 1) l w1 (by cases l <;> simp)
  refine ⟨l', w', hp, ?_⟩
  lib hs, Init.randM
  brun [Builtins.shuffleB, ha, h]

/-- C76.  Shuffling is fair: every order of the list comes from some answers of the source, and if
the elements are different, from exactly one combination of answers.  (There are as many
combinations as orders; so if the answers are equally likely, so are the orders.) -/
theorem C76_shuffle_fair (hs : Std env) {l l' : List Expr} (hne : l ≠ []) (hp : l'.Perm l) :
    (∃ ks, Answers (l.length - 1) ks ∧
      evalN P scripted (stdB P L) (n + 1) (call c!"rand" c!"shuffle" [.quote (.list l)]) env ks =
        (.ok (.list l'), env, [])) ∧
    (l.Nodup → ∀ ks ks', Answers (l.length - 1) ks → Answers (l.length - 1) ks' →
      evalN P scripted (stdB P L) (n + 1) (call c!"rand" c!"shuffle" [.quote (.list l)]) env ks =
        (.ok (.list l'), env, []) →
      evalN P scripted (stdB P L) (n + 1) (call c!"rand" c!"shuffle" [.quote (.list l)]) env ks' =
        (.ok (.list l'), env, []) → ks = ks') := by
  have hlen : l.length = l.length - 1 + 1 := by
    have := List.length_pos_iff.2 hne
    omega
  have key : ∀ ks, evalN P scripted (stdB P L) (n + 1)
      (call c!"rand" c!"shuffle" [.quote (.list l)]) env ks =
      ((Builtins.shuffleLoop (l.length - 1) (l ++ [])).run scripted (evalN P scripted (stdB P L) n)
        >>= fun l' => (pure (.list l') : M (List Nat) Expr)) env ks := by
    intro ks
    rw [List.append_nil]
    lib hs, Init.randM
    have hq : evalN P scripted (stdB P L) n (.quote (.list l)) env ks = (.ok (.list l), env, ks) := by
      cases n <;> rfl
    brun [Builtins.shuffleB, hq]
  constructor
  · obtain ⟨ks, ha, hr⟩ := shuffle_reaches (env := env) (ev0 := evalN P scripted (stdB P L) n)
      (l.length - 1) l l' [] hlen hp
    refine ⟨ks, ha, ?_⟩
    rw [key, M.bind_ok hr, List.append_nil]
    rfl
  · intro hn ks ks' ha ha' h h'
    have unwrap : ∀ ks, evalN P scripted (stdB P L) (n + 1)
        (call c!"rand" c!"shuffle" [.quote (.list l)]) env ks = (.ok (.list l'), env, []) →
        (Builtins.shuffleLoop (l.length - 1) (l ++ [])).run scripted
          (evalN P scripted (stdB P L) n) env ks = (.ok (l' ++ []), env, []) := by
      intro ks h
      rw [key] at h
      rcases hr : (Builtins.shuffleLoop (l.length - 1) (l ++ [])).run scripted
        (evalN P scripted (stdB P L) n) env ks with ⟨o, e, r⟩
      cases o with
      | ok v =>
        rw [M.bind_ok hr] at h
        simp only [M.pure_apply, Prod.mk.injEq, Outcome.ok.injEq, Expr.list.injEq] at h
        simp [h]
      | err e => rw [M.bind_err hr] at h; simp at h
      | panic => rw [M.bind_panic hr] at h; simp at h
      | exit c => rw [M.bind_exit hr] at h; simp at h
      | noFuel => rw [M.bind_noFuel hr] at h; simp at h
    exact shuffle_once (l.length - 1) l l' [] ks ks' hlen (hp.length_eq.trans hlen) hn ha ha'
      (unwrap ks h) (unwrap ks' h')

/-- C76.  The number of combinations of answers is the number of orders. -/
theorem C76_answers (i : Nat) : (∀ ks, ks ∈ allAnswers i ↔ Answers i ks) ∧ (allAnswers i).Nodup ∧
    (allAnswers i).length = (i + 1).factorial := by
  induction i with
  | zero =>
    refine ⟨?_, by simp [allAnswers], rfl⟩
    intro ks
    simp only [allAnswers, List.mem_singleton]
    constructor
    · rintro rfl; exact .nil
    · intro h; cases h; rfl
  | succ i ih =>
    obtain ⟨h1, h2, h3⟩ := ih
    refine ⟨?_, ?_, ?_⟩
    · intro ks
      simp only [allAnswers, List.mem_flatMap, List.mem_range, List.mem_map]
      constructor
      · rintro ⟨k, hk, ks', hks, rfl⟩
        exact .cons (by omega) ((h1 _).1 hks)
      · intro h
        cases h with
        | @cons _ k ks' hk h => exact ⟨k, by omega, ks', (h1 _).2 h, rfl⟩
    · simp only [allAnswers]
      rw [List.nodup_flatMap]
      refine ⟨fun k _ => h2.map (fun a b h => by simpa using h), ?_⟩
      refine List.nodup_range.pairwise_of_forall_ne ?_
      intro a _ b _ hab
      simp only [Function.onFun, List.disjoint_left, List.mem_map]
      rintro _ ⟨x, _, rfl⟩ ⟨y, _, h⟩
      simp at h
      exact hab h.1.symm
    · simp only [allAnswers, List.length_flatMap, List.length_map, h3]
      simp [Nat.factorial_succ (i + 1)]

end

/-! ### Examples -/

/-- A source that always answers the smallest number. -/
def lowest : Host Unit where
  io op w :=
    match op with
    | .randomInt l _ => (.int l, w)
    | .randomIndex _ => (.nat 0, w)
    | _ => (.unit, w)

theorem lowest_source : RandomSource lowest where
  int l _ w hl := ⟨l, w, rfl, Int.le_refl _, hl⟩
  index n w hn := ⟨0, w, rfl, hn⟩

example : (evalN Demo.plat lowest (stdB Demo.plat Demo.lib) 2
    (call c!"rand" c!"int" [.int (.lit 3), .int (.lit 6)]) Demo.env ()).1 = .ok (.int (.lit 3)) := rfl

example : (evalN Demo.plat lowest (stdB Demo.plat Demo.lib) 2
    (call c!"rand" c!"int" [.int (.lit 3), .int (.lit 3)]) Demo.env ()).1 = .panic := rfl

example : (evalN Demo.plat scripted (stdB Demo.plat Demo.lib) 2
    (call c!"rand" c!"choose" [.list [.int (.lit 3), .int (.lit 6)]]) Demo.env [1]).1 =
    .ok (.int (.lit 6)) := rfl

example : (evalN Demo.plat scripted (stdB Demo.plat Demo.lib) 2
    (call c!"rand" c!"shuffle" [.list [.int (.lit 1), .int (.lit 2), .int (.lit 3)]])
    Demo.env [0, 1]).1 = .ok (.list [.int (.lit 3), .int (.lit 2), .int (.lit 1)]) := rfl

example : Answers 2 [0, 1] := .cons (by omega) (.cons (by omega) .nil)

/-! ### Instances: the hypotheses can be met -/

section

example := C76_int (P := Demo.plat) (L := Demo.lib) (n := 0) (w := ()) demo_std lowest_source
  (a := .int .min) (b := .int .max) (lo := .min) (hi := .max) rfl rfl (by decide)

example := C76_choose (P := Demo.plat) (L := Demo.lib) (n := 0) (w := ()) demo_std lowest_source
  (a := .list [.none]) rfl (by simp)

example := C76_shuffle (P := Demo.plat) (L := Demo.lib) (n := 0) (w := ()) demo_std lowest_source
  (a := .list [.none, .bool true]) rfl

example := C76_shuffle_fair (P := Demo.plat) (L := Demo.lib) (n := 0) demo_std
  (l := [.none, .bool true]) (l' := [.bool true, .none]) (by simp) (.swap ..)

end

example := C76_int_empty (P := Demo.plat) (H := Demo.host) (L := Demo.lib) (n := 0) (w := [])
  demo_std (a := .int (.lit 3)) (b := .int (.lit 3)) rfl rfl (by decide)

example := C76_choose_empty (P := Demo.plat) (H := Demo.host) (L := Demo.lib) (n := 0) (w := [])
  demo_std (a := .list []) rfl

end Dune.Props
