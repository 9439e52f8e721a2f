import Verif.Props.Text
import Verif.Props.Basics
import Verif.Props.Fs
import Mathlib.Data.List.Induction
import Mathlib.Data.List.Infix
import Mathlib.Data.List.Dedup

/-! C68: directories, deep copies and removal. -/

namespace Dune.Props

open Spec

/-- What is at a path. -/
inductive Entry
  | file (b : List UInt8)
  | dir
deriving DecidableEq

/-- A file name. -/
def Name (n : Str) : Prop := n ≠ [] ∧ '/' ∉ n ∧ n ≠ c!"." ∧ n ≠ c!".."

/-- The text of the absolute path with these names. -/
def render : List Str → Str
  | [] => c!"/"
  | ns => ns.flatMap fun n => '/' :: n

/-- A world with a file system: `fs` says what is at a path (given by its names from the root).
Requests may fail, and then may have done a part of their work, but only at the paths they are
about. -/
structure FileTree {W : Type} (H : Host W) (fs : W → List Str → Option Entry) : Prop where
  /-- an entry is in a directory -/
  parent : ∀ w p n, (fs w (p ++ [n])).isSome → fs w p = some .dir
  names : ∀ w p, (fs w p).isSome → ∀ n ∈ p, Name n
  exists_ : ∀ p w, (∀ n ∈ p, Name n) → H.io (.exists_ (render p)) w = (.bool (fs w p).isSome, w)
  isDir : ∀ p w, (∀ n ∈ p, Name n) →
    (fs w p = some .dir → H.io (.isDir (render p)) w = (.bool true, w)) ∧
    (fs w p ≠ some .dir → H.io (.isDir (render p)) w = (.bool false, w))
  isFile : ∀ p w, (∀ n ∈ p, Name n) →
    ((∃ b, fs w p = some (.file b)) → H.io (.isFile (render p)) w = (.bool true, w)) ∧
    ((∀ b, fs w p ≠ some (.file b)) → H.io (.isFile (render p)) w = (.bool false, w))
  readDir : ∀ p w, fs w p = some .dir → (∃ e, H.io (.readDir (render p)) w = (.err e, w)) ∨
    ∃ ns, H.io (.readDir (render p)) w = (.strs ns, w) ∧ ns.Nodup ∧
      ∀ n, n ∈ ns ↔ (fs w (p ++ [n])).isSome
  createDirAll : ∀ p w, (∀ n ∈ p, Name n) → ∃ r w', H.io (.createDirAll (render p)) w = (r, w') ∧
    (∀ q, ¬ q <+: p → fs w' q = fs w q) ∧
    (∀ q, q <+: p → (fs w q).isSome → fs w' q = fs w q) ∧
    ((∃ e, r = .err e) ∨ ((∀ e, r ≠ .err e) ∧ ∀ q, q <+: p → fs w' q = some .dir))
  copyFile : ∀ p q w, (∀ n ∈ p, Name n) → (∀ n ∈ q, Name n) →
    ∃ r w', H.io (.copyFile (render p) (render q)) w = (r, w') ∧
    (∀ x, x ≠ q → fs w' x = fs w x) ∧
    ((∃ e, r = .err e) ∨
      ((∀ e, r ≠ .err e) ∧ ∃ b, fs w p = some (.file b) ∧ fs w' q = some (.file b)))
  removeFile : ∀ p w, (∀ n ∈ p, Name n) → ∃ r w', H.io (.removeFile (render p)) w = (r, w') ∧
    (((∃ e, r = .err e) ∧ w' = w) ∨ ((∀ e, r ≠ .err e) ∧ (∃ b, fs w p = some (.file b)) ∧
      fs w' p = none ∧ ∀ x, x ≠ p → fs w' x = fs w x))
  removeDir : ∀ p w, (∀ n ∈ p, Name n) → ∃ r w', H.io (.removeDir (render p)) w = (r, w') ∧
    (((∃ e, r = .err e) ∧ w' = w) ∨ ((∀ e, r ≠ .err e) ∧ fs w p = some .dir ∧
      (∀ n, fs w (p ++ [n]) = none) ∧ fs w' p = none ∧ ∀ x, x ≠ p → fs w' x = fs w x))
  removeDirAll : ∀ p w, (∀ n ∈ p, Name n) →
    ∃ r w', H.io (.removeDirAll (render p)) w = (r, w') ∧
    (∀ x, ¬ p <+: x → fs w' x = fs w x) ∧
    ((∃ e, r = .err e) ∨ ((∀ e, r ≠ .err e) ∧ ∀ x, p <+: x → fs w' x = none))

/-! ### Paths -/

theorem render_cons (n : Str) (p : List Str) : render (n :: p) = '/' :: n ++ p.flatMap ('/' :: ·) := rfl

theorem flatMap_getLast : ∀ {p : List Str}, p ≠ [] → (∀ n ∈ p, Name n) →
    (p.flatMap ('/' :: ·)).getLast? ≠ some '/'
  | [], h, _ => absurd rfl h
  | [n], _, hn => by
    obtain ⟨h1, h2, _⟩ := hn n (by simp)
    simp only [List.flatMap_cons, List.flatMap_nil, List.append_nil]
    rw [List.getLast?_cons_of_ne_nil h1]
    intro h
    exact h2 (List.mem_of_getLast? h)
  | n :: m :: p, _, hn => by
    have := flatMap_getLast (p := m :: p) (by simp) fun x hx => hn x (List.mem_cons_of_mem _ hx)
    rw [List.flatMap_cons, List.getLast?_append]
    rw [List.flatMap_cons] at this ⊢
    rcases h : (('/' :: m) ++ List.flatMap ('/' :: ·) p).getLast? with _ | c
    · simp at h
    · rw [h] at this
      simpa using this

theorem join_render {p : List Str} {n : Str} (hp : ∀ x ∈ p, Name x) (hn : Name n) :
    pathJoin (render p) n = render (p ++ [n]) := by
  have h0 : n.head? ≠ some '/' := by
    cases n with
    | nil => simp
    | cons c n =>
      rw [List.head?_cons]
      intro h
      have : c = '/' := Option.some.inj h
      exact hn.2.1 (by simp [this])
  cases p with
  | nil =>
    rw [show render [] = c!"/" from rfl, (Resolved.root n h0).join]
    simp [render]
  | cons m p =>
    have h1 := flatMap_getLast (p := m :: p) (by simp) hp
    rw [show render (m :: p) = (m :: p).flatMap ('/' :: ·) from rfl,
      (Resolved.relative _ n h0 (by simp) h1).join]
    simp [render]

theorem cut_names : ∀ {p : List Str}, (∀ n ∈ p, Name n) →
    Cut c!"/" (render (p ++ [])) ([] :: if p = [] then [[]] else p) := by
  have key : ∀ {p : List Str} {n : Str}, Name n → (∀ n ∈ p, Name n) →
      Cut c!"/" (n ++ p.flatMap ('/' :: ·)) (n :: p) := by
    intro p
    induction p with
    | nil =>
      intro n hn _
      simp only [List.flatMap_nil, List.append_nil]
      refine .last ?_
      rintro ⟨a, b, h⟩
      exact hn.2.1 (by simp [h])
    | cons m p ih =>
      intro n hn hp
      have := ih (hp m (by simp)) fun x hx => hp x (List.mem_cons_of_mem _ hx)
      have h2 : ¬ Occurs c!"/" (n ++ (c!"/").dropLast) := by
        rintro ⟨a, b, h⟩
        have : '/' ∈ n ++ (c!"/").dropLast := by rw [h]; simp
        exact hn.2.1 (by simpa using this)
      have := Cut.cut h2 this
      simpa using this
  intro p hp
  cases p with
  | nil =>
    have h := Cut.cut (sep := c!"/") (p := []) (rest := []) (ps := [[]]) (by
      rintro ⟨a, b, h⟩
      simp at h) (.last (by
      rintro ⟨a, b, h⟩
      simp at h))
    exact h
  | cons n p =>
    have h := Cut.cut (sep := c!"/") (p := []) (by
      rintro ⟨a, b, h⟩
      simp at h) (key (hp n (by simp)) fun x hx => hp x (List.mem_cons_of_mem _ hx))
    simpa [render] using h

theorem components_render {p : List Str} (hp : ∀ n ∈ p, Name n) :
    pathComponents (render p) = (true, p) := by
  have hc := cut_names hp
  rw [List.append_nil] at hc
  have hsp := (cut_splitStr (sep := c!"/") (by simp) (render p)).unique (by simp) hc
  have hr : ∃ t, render p = '/' :: t := by
    cases p with
    | nil => exact ⟨[], rfl⟩
    | cons n p => exact ⟨_, render_cons n p⟩
  obtain ⟨t, ht⟩ := hr
  have hf : (p.filter fun x => decide (x ≠ [] ∧ x ≠ c!".")) = p :=
    List.filter_eq_self.mpr fun x hx => by
      have := hp x hx
      simp [this.1, this.2.2.1]
  rw [pathComponents.eq_def]
  rw [ht] at hsp ⊢
  simp only
  rw [hsp]
  cases p with
  | nil => rfl
  | cons n p =>
    rw [if_neg (by simp), List.filter_cons_of_neg (by simp), hf]

theorem pathEq_render {p q : List Str} (hp : ∀ n ∈ p, Name n) (hq : ∀ n ∈ q, Name n) :
    pathEq (render p) (render q) = decide (p = q) := by
  rw [pathEq, components_render hp, components_render hq]
  simp

theorem names_append {p q : List Str} (hp : ∀ n ∈ p, Name n) (hq : ∀ n ∈ q, Name n) :
    ∀ n ∈ p ++ q, Name n := fun n hn => (List.mem_append.mp hn).elim (hp n) (hq n)

theorem nothing_below {f : List Str → Option Entry}
    (hf : ∀ p n, (f (p ++ [n])).isSome → f p = some .dir) {p : List Str} (h : f p = none) :
    ∀ r, f (p ++ r) = none := by
  intro r
  induction r using List.reverseRecOn with
  | nil => simpa using h
  | append_singleton r n ih =>
    rw [← List.append_assoc]
    cases hx : f (p ++ r ++ [n]) with
    | none => rfl
    | some e =>
      have := hf (p ++ r) n (by rw [hx]; rfl)
      rw [ih] at this
      cases this

section

variable {W : Type} {P : Plat} {H : Host W} {L : Lib} {n : Nat} {env env1 env2 : Env}
  {w w1 w2 : W} {fs : W → List Str → Option Entry}

/-- Below a path where there is nothing there is nothing. -/
theorem below_none (hF : FileTree H fs) {p : List Str} (h : fs w p = none) :
    ∀ r, fs w (p ++ r) = none := nothing_below (hF.parent w) h

/-- Below a file there is nothing. -/
theorem below_file (hF : FileTree H fs) {p : List Str} {b : List UInt8} (h : fs w p = some (.file b))
    {r : List Str} (hr : r ≠ []) : fs w (p ++ r) = none := by
  obtain ⟨n, r, rfl⟩ : ∃ n r', r = n :: r' := by
    cases r with
    | nil => exact absurd rfl hr
    | cons n r => exact ⟨n, r, rfl⟩
  have : fs w (p ++ [n]) = none := by
    cases hx : fs w (p ++ [n]) with
    | none => rfl
    | some e =>
      have := hF.parent w p n (by rw [hx]; rfl)
      rw [h] at this
      cases this
  have := below_none hF this r
  simpa using this

theorem run_askBool {ev0 : Expr → M W Expr} {op : IOp} {b : Bool} {w' : W}
    (h : H.io op w = (.bool b, w')) :
    (Builtins.askBool op).run H ev0 env w = (.ok b, env, w') := by
  rw [Builtins.askBool, BProg.run_bind, BProg.run_ask]
  have : M.io H op env w = (.ok (.bool b), env, w') := by rw [M.io, h]
  rw [M.bind_ok this]
  rfl

/-- What a copy has done when it ends, successfully or not. -/
structure Copied (fs : W → List Str → Option Entry) (src dst : List Str) (o : Outcome Unit)
    (w w' : W) : Prop where
  /-- nothing outside the destination and the directories above it has changed -/
  frame : ∀ q, ¬ dst <+: q → ¬ q <+: dst → fs w' q = fs w q
  /-- nothing that was there before has changed -/
  keep : ∀ q, (fs w q).isSome → fs w' q = fs w q
  /-- there was something to copy, and a place for it -/
  needs : o = .ok () → src ≠ dst → (fs w src).isSome ∧ fs w dst = none
  /-- the copy is complete -/
  done : o = .ok () → src ≠ dst → ¬ src <+: dst → ¬ dst <+: src →
    ∀ r, fs w' (dst ++ r) = fs w (src ++ r)

theorem Copied.refl_of_not_ok {src dst : List Str} {o : Outcome Unit} (h : o ≠ .ok ()) :
    Copied fs src dst o w w :=
  ⟨fun _ _ _ => rfl, fun _ _ => rfl, fun h' => absurd h' h, fun h' => absurd h' h⟩

theorem prefix_split {a b x y : List Str} (h : a ++ x <+: b ++ y) : a <+: b ∨ b <+: a :=
  List.prefix_or_prefix_of_prefix ((List.prefix_append a x).trans h) (List.prefix_append b y)

theorem run_entries (hF : FileTree H fs) {ev0 : Expr → M W Expr} {fuel : Nat}
    (ih : ∀ (src dst : List Str) (w : W), (∀ n ∈ src, Name n) → (∀ n ∈ dst, Name n) →
      ∃ o w', (Builtins.copyPath fuel (render src) (render dst)).run H ev0 env w = (o, env, w') ∧
        Copied fs src dst o w w')
    {src dst : List Str} (hsrc : ∀ n ∈ src, Name n) (hdst : ∀ n ∈ dst, Name n) :
    ∀ (ns : List Str), (∀ n ∈ ns, Name n) → ∀ w : W,
      ∃ o w', (Builtins.copyEntries (Builtins.copyPath fuel) (render src) (render dst) ns).run H ev0
          env w = (o, env, w') ∧
        (∀ q, ¬ dst <+: q → ¬ q <+: dst → fs w' q = fs w q) ∧
        (∀ q, (fs w q).isSome → fs w' q = fs w q) ∧
        (o = .ok () → ¬ src <+: dst → ¬ dst <+: src → ∀ n r,
          (n ∈ ns → fs w' (dst ++ [n] ++ r) = fs w (src ++ [n] ++ r)) ∧
          (n ∉ ns → fs w' (dst ++ [n] ++ r) = fs w (dst ++ [n] ++ r)))
  | [], _, w => ⟨.ok (), w, rfl, fun _ _ _ => rfl, fun _ _ => rfl, fun _ _ _ _ _ => by simp⟩
  | n :: ns, hns, w => by
    have hn := hns n (by simp)
    have hsn := names_append hsrc (q := [n]) (by simpa using hn)
    have hdn := names_append hdst (q := [n]) (by simpa using hn)
    obtain ⟨o1, w1, h1, hc⟩ := ih (src ++ [n]) (dst ++ [n]) w hsn hdn
    have hstep : (Builtins.copyEntries (Builtins.copyPath fuel) (render src) (render dst)
        (n :: ns)).run H ev0 env w = ((Builtins.copyPath fuel (render (src ++ [n]))
          (render (dst ++ [n]))).run H ev0 >>= fun _ =>
          (Builtins.copyEntries (Builtins.copyPath fuel) (render src) (render dst) ns).run H ev0)
          env w := by
      rw [Builtins.copyEntries, BProg.run_bind, join_render hsrc hn, join_render hdst hn]
    have hframe : ∀ q, ¬ dst <+: q → ¬ q <+: dst → fs w1 q = fs w q := by
      intro q hq1 hq2
      refine hc.frame q (fun h => hq1 ((List.prefix_append dst [n]).trans h)) fun h => ?_
      rcases (List.prefix_concat_iff).mp h with rfl | h'
      · exact hq1 (List.prefix_append dst [n])
      · exact hq2 h'
    cases o1 with
    | ok u =>
      obtain ⟨o2, w2, h2, hf2, hk2, hd2⟩ := run_entries hF ih hsrc hdst ns
        (fun x hx => hns x (List.mem_cons_of_mem _ hx)) w1
      refine ⟨o2, w2, ?_, ?_, ?_, ?_⟩
      · rw [hstep, M.bind_ok h1, h2]
      · intro q hq1 hq2
        rw [hf2 q hq1 hq2, hframe q hq1 hq2]
      · intro q hq
        have e1 := hc.keep q hq
        rw [hk2 q (by rw [e1]; exact hq), e1]
      · intro ho hi1 hi2 m r
        have e1 := hd2 ho hi1 hi2 m r
        have hsame : fs w1 (src ++ [m] ++ r) = fs w (src ++ [m] ++ r) := by
          refine hframe _ (fun h => ?_) fun h => ?_
          · rw [List.append_assoc] at h
            rcases prefix_split (x := []) (by simpa using h) with h | h
            · exact hi2 h
            · exact hi1 h
          · rw [List.append_assoc] at h
            rcases prefix_split (y := []) (by simpa using h) with h | h
            · exact hi1 h
            · exact hi2 h
        by_cases hmn : m = n
        · subst hmn
          refine ⟨fun _ => ?_, fun h => absurd (by simp) h⟩
          by_cases hmem : m ∈ ns
          · rw [e1.1 hmem, hsame]
          · rw [e1.2 hmem]
            refine hc.done rfl ?_ ?_ ?_ r
            · intro h
              have := List.append_cancel_right h
              subst this
              exact hi1 (List.prefix_refl _)
            · intro h
              rcases prefix_split h with h | h
              · exact hi1 h
              · exact hi2 h
            · intro h
              rcases prefix_split h with h | h
              · exact hi2 h
              · exact hi1 h
        · have hother : fs w1 (dst ++ [m] ++ r) = fs w (dst ++ [m] ++ r) := by
            refine hc.frame _ (fun h => ?_) fun h => ?_
            · rw [List.append_assoc, List.prefix_append_right_inj] at h
              simp only [List.cons_append, List.nil_append, List.cons_prefix_cons] at h
              exact hmn h.1.symm
            · rw [List.append_assoc, List.prefix_append_right_inj] at h
              simp only [List.cons_append, List.nil_append, List.cons_prefix_cons] at h
              exact hmn h.1
          constructor
          · intro hm
            rw [List.mem_cons] at hm
            rw [e1.1 (hm.resolve_left hmn), hsame]
          · intro hm
            rw [List.mem_cons, not_or] at hm
            rw [e1.2 hm.2, hother]
    | err e =>
      exact ⟨.err e, w1, by rw [hstep, M.bind_err h1], hframe, hc.keep, by simp⟩
    | panic =>
      exact ⟨.panic, w1, by rw [hstep, M.bind_panic h1], hframe, hc.keep, by simp⟩
    | exit c =>
      exact ⟨.exit c, w1, by rw [hstep, M.bind_exit h1], hframe, hc.keep, by simp⟩
    | noFuel =>
      exact ⟨.noFuel, w1, by rw [hstep, M.bind_noFuel h1], hframe, hc.keep, by simp⟩

theorem io_ok {op : IOp} {r : IORes} {w' : W} (h : H.io op w = (r, w')) :
    M.io H op env w = (.ok r, env, w') := by rw [M.io, h]

theorem run_fail {α : Type} {ev0 : Expr → M W Expr} (m : Str) :
    (BProg.fail m : BProg α).run H ev0 env w = (.err (.customError m), env, w) := rfl

theorem run_copy (hF : FileTree H fs) {ev0 : Expr → M W Expr} :
    ∀ (fuel : Nat) (src dst : List Str) (w : W), (∀ n ∈ src, Name n) → (∀ n ∈ dst, Name n) →
      ∃ o w', (Builtins.copyPath fuel (render src) (render dst)).run H ev0 env w = (o, env, w') ∧
        Copied fs src dst o w w'
  | 0, _, _, w, _, _ => ⟨.panic, w, rfl, .refl_of_not_ok (by simp)⟩
  | fuel + 1, src, dst, w, hsrc, hdst => by
    rw [Builtins.copyPath, pathEq_render hsrc hdst]
    by_cases he : src = dst
    · subst he
      rw [if_pos (by simp)]
      exact ⟨.ok (), w, rfl, fun _ _ _ => rfl, fun _ _ => rfl, fun _ h => absurd rfl h,
        fun _ h => absurd rfl h⟩
    rw [if_neg (by simpa using he), BProg.run_bind,
      M.bind_ok (run_askBool (hF.exists_ dst w hdst))]
    cases hd : fs w dst with
    | some e =>
      exact ⟨_, w, run_fail _, .refl_of_not_ok (by simp)⟩
    | none =>
      simp only [Option.isSome_none, Bool.false_eq_true, if_false]
      rw [BProg.run_bind]
      by_cases hdir : fs w src = some .dir
      · rw [M.bind_ok (run_askBool ((hF.isDir src w hsrc).1 hdir)), if_pos rfl, BProg.run_bind,
          BProg.run_ask]
        obtain ⟨r, w1, h1, hf1, hk1, hr⟩ := hF.createDirAll dst w hdst
        rw [M.bind_ok (io_ok h1)]
        have hframe1 : ∀ q, ¬ dst <+: q → ¬ q <+: dst → fs w1 q = fs w q := fun q _ h => hf1 q h
        have hkeep1 : ∀ q, (fs w q).isSome → fs w1 q = fs w q := by
          intro q hq
          by_cases h : q <+: dst
          · exact hk1 q h hq
          · exact hf1 q h
        rcases hr with ⟨e, rfl⟩ | ⟨hne, hcr⟩
        · exact ⟨_, w1, run_fail _, hframe1, hkeep1, by simp, by simp⟩
        · have hsd : fs w1 src = some .dir := by rw [hkeep1 src (by rw [hdir]; rfl), hdir]
          have hgoal : ∃ o w', ((do
              match ← BProg.ask (.readDir (render src)) with
              | .strs names => Builtins.copyEntries (Builtins.copyPath fuel) (render src) (render dst) names
              | _ => BProg.fail (c!"could not create directory " ++ render dst)) : BProg Unit).run H ev0
                env w1 = (o, env, w') ∧ Copied fs src dst o w w' := by
            rw [BProg.run_bind, BProg.run_ask]
            rcases hF.readDir src w1 hsd with ⟨e, h2⟩ | ⟨ns, h2, _, hns⟩
            · rw [M.bind_ok (io_ok h2)]
              exact ⟨_, w1, run_fail _, hframe1, hkeep1, by simp, by simp⟩
            · rw [M.bind_ok (io_ok h2)]
              have hnm : ∀ n ∈ ns, Name n := fun n hn =>
                hF.names w1 (src ++ [n]) ((hns n).mp hn) n (by simp)
              obtain ⟨o, w2, h3, hf3, hk3, hd3⟩ := run_entries (env := env) (ev0 := ev0) hF
                (fun s d w hs hd => run_copy hF fuel s d w hs hd) hsrc hdst ns hnm w1
              refine ⟨o, w2, h3, ?_, ?_, fun _ _ => ⟨by rw [hdir]; rfl, hd⟩, ?_⟩
              · intro q hq1 hq2
                rw [hf3 q hq1 hq2, hframe1 q hq1 hq2]
              · intro q hq
                have e1 := hkeep1 q hq
                rw [hk3 q (by rw [e1]; exact hq), e1]
              · intro ho _ hi1 hi2 r
                cases r with
                | nil =>
                  have : fs w1 dst = some .dir := hcr dst (List.prefix_refl _)
                  rw [List.append_nil, List.append_nil, hk3 dst (by rw [this]; rfl), this, hdir]
                | cons n r =>
                  have hss : ∀ x, fs w1 (src ++ x) = fs w (src ++ x) := by
                    intro x
                    refine hf1 _ fun h => hi1 ((List.prefix_append src x).trans h)
                  have hdn : fs w1 (dst ++ n :: r) = none := by
                    rw [hf1]
                    · exact below_none hF hd (n :: r)
                    · intro h
                      have := h.length_le
                      simp only [List.length_append, List.length_cons] at this
                      omega
                  have e1 := hd3 ho hi1 hi2 n r
                  simp only [List.append_assoc, List.cons_append, List.nil_append] at e1
                  by_cases hmem : n ∈ ns
                  · rw [e1.1 hmem, hss]
                  · rw [e1.2 hmem, hdn]
                    have h0 : fs w1 (src ++ [n]) = none := by
                      cases hx : fs w1 (src ++ [n]) with
                      | none => rfl
                      | some e => exact absurd ((hns n).mpr (by rw [hx]; rfl)) hmem
                    have h0r : fs w1 (src ++ n :: r) = none := by
                      simpa using below_none hF h0 r
                    rw [← hss, h0r]
          obtain ⟨o, w', h4, h5⟩ := hgoal
          refine ⟨o, w', ?_, h5⟩
          rw [← h4]
          cases r <;> first | exact absurd rfl (hne _) | rfl
      · rw [M.bind_ok (run_askBool ((hF.isDir src w hsrc).2 hdir)), if_neg (by simp), BProg.run_bind,
          BProg.run_ask]
        obtain ⟨r, w1, h1, hf1, hr⟩ := hF.copyFile src dst w hsrc hdst
        rw [M.bind_ok (io_ok h1)]
        have hframe1 : ∀ q, ¬ dst <+: q → ¬ q <+: dst → fs w1 q = fs w q := fun q h _ =>
          hf1 q fun e => h (e ▸ List.prefix_refl _)
        have hkeep1 : ∀ q, (fs w q).isSome → fs w1 q = fs w q := fun q hq =>
          hf1 q fun e => by rw [e, hd] at hq; cases hq
        rcases hr with ⟨e, rfl⟩ | ⟨hne, b, hb1, hb2⟩
        · exact ⟨_, w1, run_fail _, hframe1, hkeep1, by simp, by simp⟩
        · refine ⟨.ok (), w1, ?_, hframe1, hkeep1, fun _ _ => ⟨by rw [hb1]; rfl, hd⟩, ?_⟩
          · cases r <;> first | exact absurd rfl (hne _) | rfl
          · intro _ _ _ _ r
            cases r with
            | nil => rw [List.append_nil, List.append_nil, hb2, hb1]
            | cons n r => rw [below_file hF hb2 (by simp), below_file hF hb1 (by simp)]

/-! ### Copying -/

/-- C68, `fs@cp`, for a source tree of any shape, in whatever way it ends: outside the destination and
the directories above it nothing has changed, and nothing that was there before has changed; if it
succeeds, there was something at the source and nothing at the destination, and if neither path is
inside the other, everything below the destination is now as it was below the source. -/
theorem C68_copy (hs : Std env) (hF : FileTree H fs) {a b : Expr} {x y : Str} {src dst : List Str}
    (ha : evalN P H (stdB P L) n a env w = (.ok (.str x), env1, w1))
    (hb : evalN P H (stdB P L) n b env1 w1 = (.ok (.str y), env2, w2))
    (hx : Resolved env.getCwd x (render src)) (hy : Resolved env.getCwd y (render dst))
    (hsrc : ∀ n ∈ src, Name n) (hdst : ∀ n ∈ dst, Name n) (hne : src ≠ dst) :
    ∃ o w', evalN P H (stdB P L) (n + 1) (call c!"fs" c!"cp" [a, b]) env w = (o, env2, w') ∧
      (∀ q, ¬ dst <+: q → ¬ q <+: dst → fs w' q = fs w2 q) ∧
      (∀ q, (fs w2 q).isSome → fs w' q = fs w2 q) ∧
      ∀ v, o = .ok v → v = .none ∧ (fs w2 src).isSome ∧ fs w2 dst = none ∧
        (¬ src <+: dst → ¬ dst <+: src → ∀ r, fs w' (dst ++ r) = fs w2 (src ++ r)) := by
  rw [eval_twoPaths hs (.inl rfl) ha hb, if_neg (by decide), hx.join, hy.join]
  obtain ⟨o, w', h, hc⟩ := run_copy (env := env2) (ev0 := evalN P H (stdB P L) n) hF P.stackDepth
    src dst w2 hsrc hdst
  cases o with
  | ok u =>
    refine ⟨.ok .none, w', M.bind_ok h, hc.frame, hc.keep, fun v hv => ?_⟩
    cases hv
    exact ⟨rfl, (hc.needs rfl hne).1, (hc.needs rfl hne).2, hc.done rfl hne⟩
  | err e => exact ⟨.err e, w', M.bind_err h, hc.frame, hc.keep, by simp⟩
  | panic => exact ⟨.panic, w', M.bind_panic h, hc.frame, hc.keep, by simp⟩
  | exit c => exact ⟨.exit c, w', M.bind_exit h, hc.frame, hc.keep, by simp⟩
  | noFuel => exact ⟨.noFuel, w', M.bind_noFuel h, hc.frame, hc.keep, by simp⟩

theorem run_entries_stuck (hF : FileTree H fs) {ev0 : Expr → M W Expr} {fuel : Nat}
    {src dst : List Str} (hsrc : ∀ n ∈ src, Name n) (hdst : ∀ n ∈ dst, Name n) {m : Str}
    (hm : ∀ w : W, fs w (src ++ [m]) = some .dir →
      ((Builtins.copyPath fuel (render (src ++ [m])) (render (dst ++ [m]))).run H ev0 env w).1 ≠
        .ok ()) :
    ∀ (ns : List Str), (∀ n ∈ ns, Name n) → m ∈ ns → ∀ w : W, fs w (src ++ [m]) = some .dir →
      ((Builtins.copyEntries (Builtins.copyPath fuel) (render src) (render dst) ns).run H ev0
          env w).1 ≠ .ok ()
  | [], _, h, _, _ => by cases h
  | n :: ns, hns, hmem, w, hw => by
    have hn := hns n (by simp)
    have hsn := names_append hsrc (q := [n]) (by simpa using hn)
    have hdn := names_append hdst (q := [n]) (by simpa using hn)
    obtain ⟨o1, w1, h1, hc⟩ := run_copy (env := env) (ev0 := ev0) hF fuel (src ++ [n])
      (dst ++ [n]) w hsn hdn
    rw [Builtins.copyEntries, BProg.run_bind, join_render hsrc hn, join_render hdst hn]
    cases o1 with
    | ok u =>
      rw [M.bind_ok h1]
      by_cases hmn : m = n
      · subst hmn
        have := hm w hw
        rw [h1] at this
        exact absurd rfl this
      · refine run_entries_stuck hF hsrc hdst hm ns (fun x hx => hns x (List.mem_cons_of_mem _ hx))
          ((List.mem_cons.mp hmem).resolve_left hmn) w1 ?_
        rw [hc.keep _ (by rw [hw]; rfl), hw]
    | err e => rw [M.bind_err h1]; simp
    | panic => rw [M.bind_panic h1]; simp
    | exit c => rw [M.bind_exit h1]; simp
    | noFuel => rw [M.bind_noFuel h1]; simp

theorem run_copy_inside (hF : FileTree H fs) {ev0 : Expr → M W Expr} :
    ∀ (fuel : Nat) (src : List Str) (m : Str) (d : List Str) (w : W),
      (∀ n ∈ src ++ m :: d, Name n) → fs w src = some .dir →
      ((Builtins.copyPath fuel (render src) (render (src ++ m :: d))).run H ev0 env w).1 ≠ .ok ()
  | 0, _, _, _, _, _, _ => by simp [Builtins.copyPath, BProg.run]
  | fuel + 1, src, m, d, w, hn, hdir => by
    have hsrc : ∀ n ∈ src, Name n := fun n h => hn n (by simp [h])
    have hm : Name m := hn m (by simp)
    rw [Builtins.copyPath, pathEq_render hsrc hn, if_neg (by simp), BProg.run_bind,
      M.bind_ok (run_askBool (hF.exists_ _ w hn))]
    cases hd : fs w (src ++ m :: d) with
    | some e =>
      rw [Option.isSome_some, if_pos rfl, run_fail]
      simp
    | none =>
      rw [Option.isSome_none, if_neg (by simp), BProg.run_bind,
        M.bind_ok (run_askBool ((hF.isDir src w hsrc).1 hdir)), if_pos rfl, BProg.run_bind,
        BProg.run_ask]
      obtain ⟨r, w1, h1, hf1, hk1, hr⟩ := hF.createDirAll _ w hn
      rw [M.bind_ok (io_ok h1)]
      rcases hr with ⟨e, rfl⟩ | ⟨hne, hcr⟩
      · simp [run_fail]
      · have hsd : fs w1 src = some .dir := hcr _ (List.prefix_append _ _)
        have hmd : fs w1 (src ++ [m]) = some .dir := hcr _ (by simp)
        have hgoal : ((do
            match ← BProg.ask (.readDir (render src)) with
            | .strs names =>
              Builtins.copyEntries (Builtins.copyPath fuel) (render src) (render (src ++ m :: d)) names
            | _ => BProg.fail (c!"could not create directory " ++ render (src ++ m :: d)) :
              BProg Unit).run H ev0 env w1).1 ≠ .ok () := by
          rw [BProg.run_bind, BProg.run_ask]
          rcases hF.readDir src w1 hsd with ⟨e, h2⟩ | ⟨ns, h2, _, hns⟩
          · rw [M.bind_ok (io_ok h2)]
            simp [run_fail]
          · rw [M.bind_ok (io_ok h2)]
            have hnm : ∀ n ∈ ns, Name n := fun n hn =>
              hF.names w1 (src ++ [n]) ((hns n).mp hn) n (by simp)
            refine run_entries_stuck hF hsrc hn (m := m) ?_ ns hnm ((hns m).mpr (by rw [hmd]; rfl)) w1 hmd
            intro w hw
            have hmn := names_append hn (q := [m]) (by simpa using hm)
            cases d with
            | nil =>
              have := run_copy_inside hF (ev0 := ev0) fuel (src ++ [m]) m [] w (by simpa using hmn) hw
              simpa using this
            | cons k d =>
              have := run_copy_inside hF (ev0 := ev0) fuel (src ++ [m]) k (d ++ [m]) w
                (by simpa using hmn) hw
              simpa using this
        cases r <;> first | exact absurd rfl (hne _) | exact hgoal

/-- C68, copying a directory to a path inside itself never succeeds, however deep the path. -/
theorem C68_copy_inside (hs : Std env) (hF : FileTree H fs) {a b : Expr} {x y m : Str}
    {src d : List Str}
    (ha : evalN P H (stdB P L) n a env w = (.ok (.str x), env1, w1))
    (hb : evalN P H (stdB P L) n b env1 w1 = (.ok (.str y), env2, w2))
    (hx : Resolved env.getCwd x (render src)) (hy : Resolved env.getCwd y (render (src ++ m :: d)))
    (hn : ∀ n ∈ src ++ m :: d, Name n) (hdir : fs w2 src = some .dir) (v : Expr) :
    (evalN P H (stdB P L) (n + 1) (call c!"fs" c!"cp" [a, b]) env w).1 ≠ .ok v := by
  rw [eval_twoPaths hs (.inl rfl) ha hb, if_neg (by decide), hx.join, hy.join]
  have h := run_copy_inside (env := env2) (ev0 := evalN P H (stdB P L) n) hF P.stackDepth
    src m d w2 hn hdir
  rcases hr : BProg.run H (evalN P H (stdB P L) n)
    (Builtins.copyPath P.stackDepth (render src) (render (src ++ m :: d))) env2 w2 with ⟨o, e3, w3⟩
  rw [hr] at h
  cases o with
  | ok u => exact absurd rfl h
  | err e => rw [M.bind_err hr]; simp
  | panic => rw [M.bind_panic hr]; simp
  | exit c => rw [M.bind_exit hr]; simp
  | noFuel => rw [M.bind_noFuel hr]; simp

/-! ### Removing -/

/-- C68, `fs@rm`: outside the path nothing changes; if it succeeds, there was something at the path,
and now there is nothing at it or below it. -/
theorem C68_rm (hs : Std env) (hF : FileTree H fs) {a : Expr} {x : Str} {p : List Str}
    (ha : evalN P H (stdB P L) n a env w = (.ok (.str x), env1, w1))
    (hx : Resolved env.getCwd x (render p)) (hp : ∀ n ∈ p, Name n) :
    ∃ o w', evalN P H (stdB P L) (n + 1) (call c!"fs" c!"rm" [a]) env w = (o, env1, w') ∧
      (∀ q, ¬ p <+: q → fs w' q = fs w1 q) ∧
      ((o = .ok .none ∧ (fs w1 p).isSome ∧ ∀ q, p <+: q → fs w' q = none) ∨
        ∃ m, o = .err (.customError m)) := by
  have hd : display P (.str x) = x := rfl
  by_cases hdir : fs w1 p = some .dir
  · have h1 := (hF.isDir p w1 hp).1 hdir
    obtain ⟨r, w2, h2, hf, hr⟩ := hF.removeDirAll p w1 hp
    rcases hr with ⟨e, rfl⟩ | ⟨hne, hr⟩
    · refine ⟨_, w2, ?_, hf, .inr ⟨c!"could not remove directory " ++ render p, rfl⟩⟩
      lib hs, Init.fsM
      brun [Builtins.rmB, Builtins.pathArg, ha, hd, hx.join, Builtins.removePath, Builtins.askBool,
        h1, h2]
    · refine ⟨.ok .none, w2, ?_, hf, .inl ⟨rfl, by rw [hdir]; rfl, hr⟩⟩
      lib hs, Init.fsM
      brun [Builtins.rmB, Builtins.pathArg, ha, hd, hx.join, Builtins.removePath, Builtins.askBool,
        h1, h2]
  · have h1 := (hF.isDir p w1 hp).2 hdir
    obtain ⟨r, w2, h2, hr⟩ := hF.removeFile p w1 hp
    rcases hr with ⟨⟨e, rfl⟩, rfl⟩ | ⟨hne, ⟨b, hb⟩, hr, hf⟩
    · refine ⟨_, w2, ?_, fun _ _ => rfl, .inr ⟨c!"could not remove file " ++ render p, rfl⟩⟩
      lib hs, Init.fsM
      brun [Builtins.rmB, Builtins.pathArg, ha, hd, hx.join, Builtins.removePath, Builtins.askBool,
        h1, h2]
    · refine ⟨.ok .none, w2, ?_, fun q hq => hf q fun e => hq (e ▸ List.prefix_refl _),
        .inl ⟨rfl, by rw [hb]; rfl, ?_⟩⟩
      · lib hs, Init.fsM
        brun [Builtins.rmB, Builtins.pathArg, ha, hd, hx.join, Builtins.removePath, Builtins.askBool,
          h1, h2]
      · rintro q ⟨r, rfl⟩
        exact below_none hF hr r

/-- C68, `fs@rmdir` removes empty directories only, and nothing else. -/
theorem C68_rmdir (hs : Std env) (hF : FileTree H fs) {a : Expr} {x : Str} {p : List Str}
    (ha : evalN P H (stdB P L) n a env w = (.ok (.str x), env1, w1))
    (hx : Resolved env.getCwd x (render p)) (hp : ∀ n ∈ p, Name n) :
    ∃ o w', evalN P H (stdB P L) (n + 1) (call c!"fs" c!"rmdir" [a]) env w = (o, env1, w') ∧
      ((o = .ok .none ∧ fs w1 p = some .dir ∧ (∀ q, q ≠ p → p <+: q → fs w1 q = none) ∧
          fs w' p = none ∧ ∀ q, q ≠ p → fs w' q = fs w1 q) ∨
        ∃ m, o = .err (.customError m) ∧ w' = w1) := by
  have hd : display P (.str x) = x := rfl
  obtain ⟨r, w2, h2, hr⟩ := hF.removeDir p w1 hp
  rcases hr with ⟨⟨e, rfl⟩, rfl⟩ | ⟨hne, hdir, hch, hr, hf⟩
  · refine ⟨_, w2, ?_, .inr ⟨c!"could not remove directory " ++ render p ++ c!", is it empty?", rfl, rfl⟩⟩
    lib hs, Init.fsM
    brun [Builtins.dirB, Builtins.pathArg, ha, hd, hx.join, h2]
  · refine ⟨.ok .none, w2, ?_, .inl ⟨rfl, hdir, ?_, hr, hf⟩⟩
    · lib hs, Init.fsM
      brun [Builtins.dirB, Builtins.pathArg, ha, hd, hx.join, h2]
    · rintro q hq ⟨r, rfl⟩
      cases r with
      | nil => simp at hq
      | cons m r => simpa using below_none hF (hch m) r

/-! ### Creating and listing -/

/-- C68, `fs@mkdir` creates the directory and the missing ones above it, and changes nothing else. -/
theorem C68_mkdir (hs : Std env) (hF : FileTree H fs) {a : Expr} {x : Str} {p : List Str}
    (ha : evalN P H (stdB P L) n a env w = (.ok (.str x), env1, w1))
    (hx : Resolved env.getCwd x (render p)) (hp : ∀ n ∈ p, Name n) :
    ∃ o w', evalN P H (stdB P L) (n + 1) (call c!"fs" c!"mkdir" [a]) env w = (o, env1, w') ∧
      (∀ q, ¬ q <+: p → fs w' q = fs w1 q) ∧ (∀ q, (fs w1 q).isSome → fs w' q = fs w1 q) ∧
      ((o = .ok .none ∧ ∀ q, q <+: p → fs w' q = some .dir) ∨ ∃ m, o = .err (.customError m)) := by
  have hd : display P (.str x) = x := rfl
  obtain ⟨r, w2, h2, hf, hk, hr⟩ := hF.createDirAll p w1 hp
  have hk' : ∀ q, (fs w1 q).isSome → fs w2 q = fs w1 q := by
    intro q hq
    by_cases h : q <+: p
    · exact hk q h hq
    · exact hf q h
  rcases hr with ⟨e, rfl⟩ | ⟨hne, hr⟩
  · refine ⟨_, w2, ?_, hf, hk', .inr ⟨c!"could not create directory " ++ render p ++ [], rfl⟩⟩
    lib hs, Init.fsM
    brun [Builtins.dirB, Builtins.pathArg, ha, hd, hx.join, h2]
  · refine ⟨.ok .none, w2, ?_, hf, hk', .inl ⟨rfl, hr⟩⟩
    lib hs, Init.fsM
    brun [Builtins.dirB, Builtins.pathArg, ha, hd, hx.join, h2]

/-- C68, `fs@ls` of a directory: it fails, or the result lists exactly the entries, each once, as the
given path followed by the name. -/
theorem C68_ls_dir (hs : Std env) (hF : FileTree H fs) {a : Expr} {x : Str} {p : List Str}
    (ha : evalN P H (stdB P L) n a env w = (.ok (.str x), env1, w1))
    (hx : Resolved env.getCwd x (render p)) (hp : ∀ n ∈ p, Name n) (hdir : fs w1 p = some .dir)
    (hx0 : x ≠ []) (hx1 : x.getLast? ≠ some '/') :
    (∃ m, evalN P H (stdB P L) (n + 1) (call c!"fs" c!"ls" [a]) env w =
      (.err (.customError m), env1, w1)) ∨
    ∃ ns : List Str, ns.Nodup ∧ (∀ m, m ∈ ns ↔ (fs w1 (p ++ [m])).isSome) ∧
      evalN P H (stdB P L) (n + 1) (call c!"fs" c!"ls" [a]) env w =
        (.ok (.list (ns.map fun m => .str (x ++ '/' :: m))), env1, w1) := by
  have hd : display P (.str x) = x := rfl
  have h1 := (hF.isDir p w1 hp).1 hdir
  rcases hF.readDir p w1 hdir with ⟨e, h2⟩ | ⟨ns, h2, hnd, hns⟩
  · refine .inl ⟨c!"could not read directory " ++ render p, ?_⟩
    lib hs, Init.fsM
    brun [Builtins.lsB, ha, hd, hx.join, Builtins.askBool, h1, h2]
  · refine .inr ⟨ns, hnd, hns, ?_⟩
    lib hs, Init.fsM
    brun [Builtins.lsB, ha, hd, hx.join, Builtins.askBool, h1, h2]
    intro m hm
    have hmn := hF.names w1 _ ((hns m).mp hm) m (by simp)
    have h0 : m.head? ≠ some '/' := fun h => hmn.2.1 (List.mem_of_head? h)
    rw [(Resolved.relative x m h0 hx0 hx1).join]

/-- C68, `fs@ls` of a file is its full path, and of a missing path a failure. -/
theorem C68_ls_other (hs : Std env) (hF : FileTree H fs) {a : Expr} {x : Str} {p : List Str}
    (ha : evalN P H (stdB P L) n a env w = (.ok (.str x), env1, w1))
    (hx : Resolved env.getCwd x (render p)) (hp : ∀ n ∈ p, Name n) :
    (∀ b, fs w1 p = some (.file b) →
      evalN P H (stdB P L) (n + 1) (call c!"fs" c!"ls" [a]) env w =
        (.ok (.list [.str (render p)]), env1, w1)) ∧
    (fs w1 p = none → ∃ m, evalN P H (stdB P L) (n + 1) (call c!"fs" c!"ls" [a]) env w =
      (.err (.customError m), env1, w1)) := by
  have hd : display P (.str x) = x := rfl
  constructor
  · intro b hb
    have h1 := (hF.isDir p w1 hp).2 (by rw [hb]; simp)
    have h2 := (hF.isFile p w1 hp).1 ⟨b, hb⟩
    lib hs, Init.fsM
    brun [Builtins.lsB, ha, hd, hx.join, Builtins.askBool, h1, h2]
  · intro hb
    have h1 := (hF.isDir p w1 hp).2 (by rw [hb]; simp)
    have h2 := (hF.isFile p w1 hp).2 (by rw [hb]; simp)
    refine ⟨render p ++ c!" does not exist", ?_⟩
    lib hs, Init.fsM
    brun [Builtins.lsB, ha, hd, hx.join, Builtins.askBool, h1, h2]

/-- C68, the tests say what is at the path and change nothing. -/
theorem C68_tests (hs : Std env) (hF : FileTree H fs) {a : Expr} {x : Str} {p : List Str}
    (ha : evalN P H (stdB P L) n a env w = (.ok (.str x), env1, w1))
    (hx : Resolved env.getCwd x (render p)) (hp : ∀ n ∈ p, Name n) :
    ∃ b1 b2 b3 : Bool,
      evalN P H (stdB P L) (n + 1) (call c!"fs" c!"exists?" [a]) env w = (.ok (.bool b1), env1, w1) ∧
      evalN P H (stdB P L) (n + 1) (call c!"fs" c!"is-dir?" [a]) env w = (.ok (.bool b2), env1, w1) ∧
      evalN P H (stdB P L) (n + 1) (call c!"fs" c!"is-file?" [a]) env w = (.ok (.bool b3), env1, w1) ∧
      (b1 = true ↔ fs w1 p ≠ none) ∧ (b2 = true ↔ fs w1 p = some .dir) ∧
      (b3 = true ↔ ∃ b, fs w1 p = some (.file b)) := by
  have hd : display P (.str x) = x := rfl
  have h1 := hF.exists_ p w1 hp
  obtain ⟨b2, h2, e2⟩ : ∃ b2, H.io (.isDir (render p)) w1 = (.bool b2, w1) ∧
      (b2 = true ↔ fs w1 p = some .dir) := by
    by_cases h : fs w1 p = some .dir
    · exact ⟨true, (hF.isDir p w1 hp).1 h, by simp [h]⟩
    · exact ⟨false, (hF.isDir p w1 hp).2 h, by simp [h]⟩
  obtain ⟨b3, h3, e3⟩ : ∃ b3, H.io (.isFile (render p)) w1 = (.bool b3, w1) ∧
      (b3 = true ↔ ∃ b, fs w1 p = some (.file b)) := by
    by_cases h : ∃ b, fs w1 p = some (.file b)
    · exact ⟨true, (hF.isFile p w1 hp).1 h, by simp [h]⟩
    · exact ⟨false, (hF.isFile p w1 hp).2 fun b hb => h ⟨b, hb⟩, by simp [h]⟩
  refine ⟨(fs w1 p).isSome, b2, b3, ?_, ?_, ?_, ?_, e2, e3⟩
  · lib hs, Init.fsM
    brun [Builtins.pathTestB, Builtins.pathArg, ha, hd, hx.join, Builtins.askBool, h1]
  · lib hs, Init.fsM
    brun [Builtins.pathTestB, Builtins.pathArg, ha, hd, hx.join, Builtins.askBool, h2]
  · lib hs, Init.fsM
    brun [Builtins.pathTestB, Builtins.pathArg, ha, hd, hx.join, Builtins.askBool, h3]
  · rw [Option.isSome_iff_ne_none]

end

/-! ### A file system -/

instance (n : Str) : Decidable (Name n) := inferInstanceAs (Decidable (_ ∧ _ ∧ _ ∧ _))

/-- A file system in memory: what is at a path, and a list of paths outside of which there is
nothing. -/
structure Disk where
  at_ : List Str → Option Entry
  all : List (List Str)
  mem : ∀ p, (at_ p).isSome → p ∈ all
  parent : ∀ p n, (at_ (p ++ [n])).isSome → at_ p = some .dir
  names : ∀ p, (at_ p).isSome → ∀ n ∈ p, Name n

def isFile : Option Entry → Bool
  | some (.file _) => true
  | _ => false

def isDir : Option Entry → Bool
  | some .dir => true
  | _ => false

theorem isFile_iff (e : Option Entry) : isFile e = true ↔ ∃ b, e = some (.file b) := by
  rcases e with _ | _ | _ <;> simp [isFile]

theorem isDir_iff (e : Option Entry) : isDir e = true ↔ e = some .dir := by
  rcases e with _ | _ | _ <;> simp [isDir]

/-- nothing at `p` and below -/
def Disk.cut (d : Disk) (p : List Str) : Disk where
  at_ q := if p <+: q then none else d.at_ q
  all := d.all
  mem q h := by
    split at h
    · cases h
    · exact d.mem q h
  parent q n h := by
    split at h
    · cases h
    · rename_i hn
      rw [if_neg fun h => hn (h.trans (List.prefix_append _ _))]
      exact d.parent q n h
  names q h := by
    split at h
    · cases h
    · exact d.names q h

/-- directories at `p` and above -/
def Disk.mkdir (d : Disk) (p : List Str) (hp : ∀ n ∈ p, Name n)
    (hf : ∀ q, q <+: p → isFile (d.at_ q) = false) : Disk where
  at_ q := if q <+: p then some .dir else d.at_ q
  all := p.inits ++ d.all
  mem q h := by
    split at h
    · rename_i hq
      simp [hq]
    · simp [d.mem q h]
  parent q n h := by
    by_cases hq : q <+: p
    · rw [if_pos hq]
    · rw [if_neg hq]
      rw [if_neg fun h => hq ((List.prefix_append _ _).trans h)] at h
      exact d.parent q n h
  names q h := by
    split at h
    · rename_i hq
      exact fun n hn => hp n (hq.subset hn)
    · exact d.names q h

/-- a file with the bytes `b` at `p ++ [n]`, where there is no directory -/
def Disk.put (d : Disk) (p : List Str) (n : Str) (b : List UInt8) (hn : Name n)
    (hp : d.at_ p = some .dir) (hd : d.at_ (p ++ [n]) ≠ some .dir) : Disk where
  at_ q := if q = p ++ [n] then some (.file b) else d.at_ q
  all := (p ++ [n]) :: d.all
  mem q h := by
    split at h
    · rename_i hq
      simp [hq]
    · simp [d.mem q h]
  parent q m h := by
    have hq : d.at_ q = some .dir := by
      split at h
      · rename_i hq
        rw [(List.append_inj' hq rfl).1, hp]
      · exact d.parent q m h
    rw [if_neg, hq]
    rintro rfl
    exact hd hq
  names q h := by
    split at h
    · rename_i hq
      subst hq
      exact names_append (d.names p (by rw [hp]; rfl)) (by simpa using hn)
    · exact d.names q h

def Disk.children (d : Disk) (p : List Str) : List Str :=
  ((d.all.filterMap List.getLast?).filter fun n => (d.at_ (p ++ [n])).isSome).dedup

theorem Disk.mem_children (d : Disk) (p : List Str) (n : Str) :
    n ∈ d.children p ↔ (d.at_ (p ++ [n])).isSome := by
  rw [Disk.children, List.mem_dedup, List.mem_filter, List.mem_filterMap]
  constructor
  · exact fun h => h.2
  · exact fun h => ⟨⟨p ++ [n], d.mem _ h, by simp⟩, h⟩

/-- the names of a path -/
def parts (s : Str) : List Str := (pathComponents s).2

theorem parts_render {p : List Str} (hp : ∀ n ∈ p, Name n) : parts (render p) = p := by
  rw [parts, components_render hp]

def diskRefuse (d : Disk) : IORes × Disk := (.err (.other c!"refused"), d)

def Disk.copy (d : Disk) (p q : List Str) : IORes × Disk :=
  match d.at_ p, q.getLast? with
  | some (.file b), some n =>
    if h : Name n ∧ isDir (d.at_ q.dropLast) = true ∧ isDir (d.at_ (q.dropLast ++ [n])) = false then
      (.unit, d.put q.dropLast n b h.1 ((isDir_iff _).mp h.2.1) fun h' => by
        rw [h', isDir] at h
        exact absurd h.2.2 (by simp))
    else diskRefuse d
  | _, _ => diskRefuse d

/-- The world with this file system. -/
def diskHost : Host Disk where
  io op d :=
    match op with
    | .exists_ s => (.bool (d.at_ (parts s)).isSome, d)
    | .isDir s => (.bool (isDir (d.at_ (parts s))), d)
    | .isFile s => (.bool (isFile (d.at_ (parts s))), d)
    | .readDir s => (.strs (d.children (parts s)), d)
    | .createDirAll s =>
      if h : (∀ n ∈ parts s, Name n) ∧ ∀ q ∈ (parts s).inits, isFile (d.at_ q) = false then
        (.unit, d.mkdir (parts s) h.1 fun q hq => h.2 q (by simpa using hq))
      else diskRefuse d
    | .copyFile s t => d.copy (parts s) (parts t)
    | .removeFile s => if isFile (d.at_ (parts s)) then (.unit, d.cut (parts s)) else diskRefuse d
    | .removeDir s =>
      if isDir (d.at_ (parts s)) ∧ d.children (parts s) = [] then (.unit, d.cut (parts s))
      else diskRefuse d
    | .removeDirAll s => (.unit, d.cut (parts s))
    | _ => diskRefuse d

theorem disk_tree : FileTree diskHost Disk.at_ where
  parent d := d.parent
  names d := d.names
  exists_ p d hp := by simp only [diskHost, parts_render hp]
  isDir p d hp := by
    simp only [diskHost, parts_render hp]
    constructor
    · intro h
      rw [h]
      rfl
    · intro h
      rw [Bool.eq_false_iff.mpr fun h' => h ((isDir_iff _).mp h')]
  isFile p d hp := by
    simp only [diskHost, parts_render hp]
    constructor
    · intro h
      rw [(isFile_iff _).mpr h]
    · intro h
      rw [Bool.eq_false_iff.mpr fun h' => ((isFile_iff _).mp h').elim h]
  readDir p d hd := by
    have hp := d.names p (by rw [hd]; rfl)
    exact .inr ⟨d.children p, by simp only [diskHost, parts_render hp], List.nodup_dedup _,
      d.mem_children p⟩
  createDirAll p d hp := by
    simp only [diskHost, parts_render hp]
    split
    · rename_i h
      refine ⟨_, _, rfl, fun q hq => if_neg hq, ?_, .inr ⟨by simp, fun q hq => if_pos hq⟩⟩
      intro q hq hs
      have := h.2 q (by simpa using hq)
      simp only [Disk.mkdir]
      rw [if_pos hq]
      rcases he : d.at_ q with _ | _ | _
      · rw [he] at hs
        cases hs
      · rw [he] at this
        cases this
      · rfl
    · exact ⟨_, _, rfl, fun _ _ => rfl, fun _ _ _ => rfl, .inl ⟨_, rfl⟩⟩
  copyFile p q d hp hq := by
    simp only [diskHost, parts_render hp, parts_render hq, Disk.copy]
    split
    · rename_i b n hb hn
      have hqn : q.dropLast ++ [n] = q := by
        rw [List.getLast?_eq_some_iff] at hn
        obtain ⟨ys, rfl⟩ := hn
        simp
      split
      · rename_i h
        refine ⟨_, _, rfl, ?_, .inr ⟨by simp, b, hb, ?_⟩⟩
        · intro x hx
          exact if_neg (by rwa [hqn])
        · exact if_pos hqn.symm
      · exact ⟨_, _, rfl, fun _ _ => rfl, .inl ⟨_, rfl⟩⟩
    · exact ⟨_, _, rfl, fun _ _ => rfl, .inl ⟨_, rfl⟩⟩
  removeFile p d hp := by
    simp only [diskHost, parts_render hp]
    split
    · rename_i h
      obtain ⟨b, hb⟩ := (isFile_iff _).mp h
      refine ⟨_, _, rfl, .inr ⟨by simp, ⟨b, hb⟩, if_pos (List.prefix_refl _), ?_⟩⟩
      intro x hx
      by_cases hpx : p <+: x
      · simp only [Disk.cut, if_pos hpx]
        obtain ⟨r, rfl⟩ := hpx
        cases r with
        | nil => simp at hx
        | cons m r =>
          have h0 : d.at_ (p ++ [m]) = none := by
            cases he : d.at_ (p ++ [m]) with
            | none => rfl
            | some e =>
              have := d.parent p m (by rw [he]; rfl)
              rw [hb] at this
              cases this
          simpa using (nothing_below d.parent h0 r).symm
      · exact if_neg hpx
    · exact ⟨_, _, rfl, .inl ⟨⟨_, rfl⟩, rfl⟩⟩
  removeDir p d hp := by
    simp only [diskHost, parts_render hp]
    split
    · rename_i h
      have h0 : ∀ m, d.at_ (p ++ [m]) = none := by
        intro m
        cases he : d.at_ (p ++ [m]) with
        | none => rfl
        | some e =>
          have := (d.mem_children p m).mpr (by rw [he]; rfl)
          rw [h.2] at this
          cases this
      refine ⟨_, _, rfl, .inr ⟨by simp, (isDir_iff _).mp h.1, h0, if_pos (List.prefix_refl _), ?_⟩⟩
      intro x hx
      by_cases hpx : p <+: x
      · simp only [Disk.cut, if_pos hpx]
        obtain ⟨r, rfl⟩ := hpx
        cases r with
        | nil => simp at hx
        | cons m r => simpa using (nothing_below d.parent (h0 m) r).symm
      · exact if_neg hpx
    · exact ⟨_, _, rfl, .inl ⟨⟨_, rfl⟩, rfl⟩⟩
  removeDirAll p d hp := by
    simp only [diskHost, parts_render hp]
    exact ⟨_, _, rfl, fun x hx => if_neg hx, .inr ⟨by simp, fun x hx => if_pos hx⟩⟩

/-- the file system with an empty root directory -/
def disk0 : Disk where
  at_ p := if p = [] then some .dir else none
  all := [[]]
  mem p h := by
    split at h
    · rename_i hp
      simp [hp]
    · cases h
  parent p n h := by simp at h
  names p h := by
    split at h
    · rename_i hp
      simp [hp]
    · cases h

/-- a directory `/d` with the file `x`, a directory `/d/e` with the file `y` -/
def disk1 : Disk :=
  ((disk0.mkdir [c!"d", c!"e"] (by decide) fun q _ => by
      rcases q with _ | _ <;> rfl).put [c!"d"] c!"x" [1] (by decide) rfl (by decide)).put
    [c!"d", c!"e"] c!"y" [2] (by decide) rfl (by decide)

def diskRun (e : Expr) (d : Disk) : Outcome Expr × Disk :=
  let r := evalN Demo.plat diskHost (stdB Demo.plat Demo.lib) 2 e Demo.env d
  (r.1, r.2.2)

/-- what the copy of `/d` to `/c` leaves, by the theorem (it succeeds) -/
example : ∃ d', diskRun (call c!"fs" c!"cp" [.str c!"/d", .str c!"/c"]) disk1 = (.ok .none, d') ∧
    ∀ r, d'.at_ ([c!"c"] ++ r) = disk1.at_ ([c!"d"] ++ r) := by
  obtain ⟨o, d', h, _, _, hv⟩ := C68_copy (P := Demo.plat) (L := Demo.lib) (n := 1) (w := disk1)
    (a := .str c!"/d") (b := .str c!"/c") (src := [c!"d"]) (dst := [c!"c"]) demo_std disk_tree rfl rfl
    (.absolute _ _) (.absolute _ _) (by decide) (by decide) (by decide)
  have ho : o = .ok .none := by
    have : (evalN Demo.plat diskHost (stdB Demo.plat Demo.lib) 2
      (call c!"fs" c!"cp" [.str c!"/d", .str c!"/c"]) Demo.env disk1).1 = .ok .none := rfl
    rw [h] at this
    exact this
  refine ⟨d', ?_, (hv _ ho).2.2.2 (by decide) (by decide)⟩
  rw [diskRun, h, ho]

example : (diskRun (call c!"fs" c!"cp" [.str c!"/d", .str c!"/c"]) disk1).2.at_
    [c!"c", c!"e", c!"y"] = some (.file [2]) := rfl

example (v : Expr) : (diskRun (call c!"fs" c!"cp" [.str c!"/d", .str c!"/d/e/f"]) disk1).1 ≠ .ok v :=
  C68_copy_inside (P := Demo.plat) (L := Demo.lib) (n := 1) (w := disk1) (src := [c!"d"]) (m := c!"e")
    (d := [c!"f"]) demo_std disk_tree rfl rfl (.absolute _ _) (.absolute _ _) (by decide) rfl v

example : (diskRun (call c!"fs" c!"rm" [.str c!"/d/e"]) disk1).1 = .ok .none ∧
    (diskRun (call c!"fs" c!"rm" [.str c!"/d/e"]) disk1).2.at_ [c!"d", c!"e", c!"y"] = none ∧
    (diskRun (call c!"fs" c!"rm" [.str c!"/d/e"]) disk1).2.at_ [c!"d", c!"x"] = some (.file [1]) :=
  ⟨rfl, rfl, rfl⟩

example : (diskRun (call c!"fs" c!"rmdir" [.str c!"/d/e"]) disk1).1 =
      .err (.customError c!"could not remove directory /d/e, is it empty?") ∧
    (diskRun (call c!"fs" c!"rmdir" [.str c!"/c"])
      (diskRun (call c!"fs" c!"mkdir" [.str c!"/c"]) disk1).2).1 = .ok .none := ⟨rfl, rfl⟩

example : (diskRun (call c!"fs" c!"mkdir" [.str c!"/a/b"]) disk1).2.at_ [c!"a"] = some .dir ∧
    (diskRun (call c!"fs" c!"mkdir" [.str c!"/d/x/b"]) disk1).1 =
      .err (.customError c!"could not create directory /d/x/b") := ⟨rfl, rfl⟩

example : (diskRun (call c!"fs" c!"ls" [.str c!"/d"]) disk1).1 =
      .ok (.list [.str c!"/d/x", .str c!"/d/e"]) ∧
    (diskRun (call c!"fs" c!"ls" [.str c!"/d/x"]) disk1).1 = .ok (.list [.str c!"/d/x"]) ∧
    (diskRun (call c!"fs" c!"ls" [.str c!"/z"]) disk1).1 =
      .err (.customError c!"/z does not exist") := ⟨rfl, rfl, rfl⟩

example : (diskRun (call c!"fs" c!"is-dir?" [.str c!"/d/e"]) disk1).1 = .ok (.bool true) ∧
    (diskRun (call c!"fs" c!"is-file?" [.str c!"/d/e"]) disk1).1 = .ok (.bool false) := ⟨rfl, rfl⟩

/-! ### Instances: the hypotheses can be met -/

example := C68_rm (P := Demo.plat) (L := Demo.lib) (n := 1) (w := disk1) (p := [c!"d"]) demo_std disk_tree
  (a := .str c!"/d") rfl (.absolute _ _) (by decide)

example := C68_rmdir (P := Demo.plat) (L := Demo.lib) (n := 1) (w := disk1) (p := [c!"d", c!"e"]) demo_std disk_tree
  (a := .str c!"/d/e") rfl (.absolute _ _) (by decide)

example := C68_mkdir (P := Demo.plat) (L := Demo.lib) (n := 1) (w := disk1) (p := [c!"n", c!"m"]) demo_std disk_tree
  (a := .str c!"/n/m") rfl (.absolute _ _) (by decide)

example := C68_ls_dir (P := Demo.plat) (L := Demo.lib) (n := 1) (w := disk1) (p := [c!"d"]) demo_std disk_tree
  (a := .str c!"/d") rfl (.absolute _ _) (by decide) rfl (by decide) (by decide)

example := (C68_ls_other (P := Demo.plat) (L := Demo.lib) (n := 1) (w := disk1) (p := [c!"n"]) demo_std disk_tree
  (a := .str c!"/n") rfl (.absolute _ _) (by decide)).2 rfl

end Dune.Props
