import Verif.Props.Log
import Verif.Props.Basics

/-! C57, continued: the text of a log message. -/

namespace Dune.Props

open Spec

/-- `s` with the prefix in front of every character that begins a line; `start` says whether `s`
itself begins at the start of a line. -/
def marked (pre : Str) : Bool → Str → Str
  | _, [] => []
  | start, c :: s => (if start then pre else []) ++ c :: marked pre (c == '\n') s

/-- The texts of a message one after the other: after a text without line ends comes a space or, at the
end of the message, a line end; after a text with line ends comes nothing. -/
def message : List Str → Str
  | [] => []
  | t :: ts => t ++ (if '\n' ∈ t then [] else if ts = [] then ['\n'] else [' ']) ++ message ts

/-- Texts with line ends stand at the start of a line: they come first or after a text ending a line. -/
def Placed (ts : List Str) : Prop :=
  ts.IsChain fun t u => '\n' ∈ u → t.getLast? = some '\n'

/-- The prefixes of the five log functions. -/
def logPrefix : List (Str × I64 × Str) :=
  [(c!"error", .lit 1, c!"\x1b[91m[ERROR]\x1b[m "), (c!"warn", .lit 2, c!"\x1b[93m[WARN]\x1b[m "),
    (c!"info", .lit 3, c!"\x1b[92m[INFO]\x1b[m "), (c!"debug", .lit 4, c!"\x1b[94m[DEBUG]\x1b[m "),
    (c!"trace", .lit 5, c!"\x1b[95m[TRACE]\x1b[m ")]

/-- what the lines of one argument print -/
def linesText (pre : Str) : List Str → Str
  | [] => []
  | [l] => if l.isEmpty then [] else pre ++ l
  | l :: m :: ls => pre ++ l ++ c!"\n" ++ linesText pre (m :: ls)

theorem splitGo_ne (s cur : Str) : splitGo c!"\n" 0 s cur ≠ [] := by
  induction s generalizing cur with
  | nil => simp [splitGo]
  | cons c s ih =>
    rw [splitGo]
    split
    · simp
    · exact ih _

theorem linesText_go (pre s cur : Str) :
    linesText pre (splitGo c!"\n" 0 s cur) =
      if cur = [] then marked pre true s else pre ++ cur.reverse ++ marked pre false s := by
  induction s generalizing cur with
  | nil => cases cur <;> simp [splitGo, linesText, marked]
  | cons c s ih =>
    rw [splitGo]
    by_cases hc : c = '\n'
    · subst hc
      rw [if_pos (by simp [List.isPrefixOf])]
      obtain ⟨l, ls, e⟩ : ∃ l ls, splitGo c!"\n" 0 s [] = l :: ls := by
        cases h : splitGo c!"\n" 0 s [] with
        | nil => exact absurd h (splitGo_ne s [])
        | cons l ls => exact ⟨l, ls, rfl⟩
      have h := ih []
      rw [if_pos rfl, e] at h
      simp only [List.length_cons, List.length_nil, Nat.reduceAdd, Nat.sub_self, e, linesText, h]
      cases cur <;> simp [marked]
    · rw [if_neg (by simp [List.isPrefixOf, Ne.symm hc]), ih, if_neg (by simp)]
      have hb : (c == '\n') = false := by simpa using hc
      cases cur <;> simp [marked, hb]

theorem split_long {s : Str} (h : '\n' ∈ s) : 1 < (splitStr c!"\n" s).length := by
  rw [splitStr, if_neg (by decide)]
  have : ∀ (s cur : Str), '\n' ∈ s → 1 < (splitGo c!"\n" 0 s cur).length := by
    intro s
    induction s with
    | nil => simp
    | cons c s ih =>
      intro cur h
      rw [splitGo]
      by_cases hc : c = '\n'
      · subst hc
        rw [if_pos (by simp [List.isPrefixOf])]
        simp only [List.length_cons, List.length_nil, Nat.reduceAdd, Nat.sub_self]
        have := List.length_pos_iff.2 (splitGo_ne s [])
        omega
      · rw [if_neg (by simp [List.isPrefixOf, Ne.symm hc])]
        refine ih _ ?_
        simpa [Ne.symm hc] using h
  exact this s [] h

theorem marked_false {pre s : Str} (h : '\n' ∉ s) (t : Str) :
    marked pre false (s ++ t) = s ++ marked pre false t := by
  induction s with
  | nil => rfl
  | cons c s ih =>
    simp only [List.mem_cons, not_or] at h
    have hb : (c == '\n') = false := by simpa using Ne.symm h.1
    simp [marked, hb, ih h.2]

theorem marked_append {pre : Str} (t : Str) : ∀ (b : Bool) (s : Str), s ≠ [] →
    marked pre b (s ++ t) = marked pre b s ++ marked pre (s.getLast? == some '\n') t := by
  intro b s
  induction s generalizing b with
  | nil => intro h; exact absurd rfl h
  | cons c s ih =>
    intro _
    cases s with
    | nil => simp [marked]
    | cons d s =>
      have := ih (c == '\n') (by simp)
      simp only [List.cons_append] at this ⊢
      rw [marked, this]
      simp [marked]

theorem marked_line {pre s x : Str} {nl : Bool} (h : '\n' ∉ s) (hx : x = ['\n'] ∨ x = [' ']) :
    marked pre nl (s ++ x) = (if nl then pre else []) ++ (s ++ x) := by
  have hx' : marked pre false x = x := by rcases hx with rfl | rfl <;> rfl
  have hf : marked pre false (s ++ x) = s ++ x := by rw [marked_false h, hx']
  cases nl with
  | false => simpa using hf
  | true =>
    cases hq : s ++ x with
    | nil => rcases hx with rfl | rfl <;> simp at hq
    | cons c q =>
      rw [hq] at hf
      simp only [marked, Bool.false_eq_true, if_false, List.nil_append, List.cons.injEq,
        true_and] at hf
      simp [marked, hf]

theorem message_plain : ∀ ts : List Str, ts ≠ [] → (∀ t ∈ ts, '\n' ∉ t) →
    message ts = spaced ts ++ ['\n'] ∧ '\n' ∉ spaced ts ∧ Placed ts := by
  intro ts
  induction ts with
  | nil => intro h; exact absurd rfl h
  | cons t ts ih =>
    intro _ h
    have ht := h t (by simp)
    cases ts with
    | nil => exact ⟨by simp [message, spaced, ht], by simpa [spaced] using ht, .singleton _⟩
    | cons u ts =>
      obtain ⟨h1, h2, h3⟩ := ih (by simp) (fun x hx => h x (by simp [hx]))
      refine ⟨?_, ?_, ?_⟩
      · rw [message, h1, if_neg ht]
        simp [spaced]
      · simp [spaced, ht, h2]
      · exact List.isChain_cons_cons.2 ⟨fun hn => absurd hn (h u (by simp)), h3⟩

/-- what each argument prints -/
def pieces (pre : Str) : Bool → List Str → Str
  | _, [] => []
  | nl, t :: ts =>
    marked pre (nl || decide ('\n' ∈ t))
      (t ++ (if '\n' ∈ t then [] else if ts = [] then ['\n'] else [' '])) ++
    pieces pre (t.getLast? == some '\n') ts

theorem pieces_eq {pre : Str} : ∀ (ts : List Str) (nl : Bool),
    (∀ t, ts.head? = some t → '\n' ∈ t → nl = true) → Placed ts →
    pieces pre nl ts = marked pre nl (message ts) := by
  intro ts
  induction ts with
  | nil => intro nl _ _; rfl
  | cons t ts ih =>
    intro nl h1 h2
    have h3 : Placed ts := by
      unfold Placed at h2 ⊢
      cases ts with
      | nil => exact .nil
      | cons => exact (List.isChain_cons_cons.1 h2).2
    have hnl : (nl || decide ('\n' ∈ t)) = nl := by
      by_cases h : '\n' ∈ t
      · simp [h1 t rfl h]
      · simp [h]
    rw [pieces, message, hnl]
    by_cases hm : '\n' ∈ t
    · have hne : t ≠ [] := by rintro rfl; simp at hm
      rw [if_pos hm, List.append_nil, marked_append _ _ _ hne, ih _ ?_ h3]
      intro u hu hn
      cases ts with
      | nil => simp at hu
      | cons v ts =>
        simp only [List.head?_cons, Option.some.injEq] at hu
        subst hu
        simp [(List.isChain_cons_cons.1 h2).1 hn]
    · rw [if_neg hm]
      have hl : (t.getLast? == some '\n') = false := by
        cases h : t.getLast? with
        | none => rfl
        | some c =>
          have : c ∈ t := List.mem_of_getLast? h
          have hc : c ≠ '\n' := by rintro rfl; exact hm this
          simpa using hc
      cases ts with
      | nil => simp [pieces, message]
      | cons u ts =>
        have hq : ((t ++ [' ']).getLast? == some '\n') = false := by simp
        rw [if_neg (by simp), marked_append (message (u :: ts)) nl (t ++ [' ']) (by simp), hl, hq,
          ih false ?_ h3]
        · intro v hv hn
          simp only [List.head?_cons, Option.some.injEq] at hv
          subst hv
          have := (List.isChain_cons_cons.1 h2).1 hn
          simp [this] at hl

section

variable {W : Type} {P : Plat} {H : Host W} {L : Lib} {n : Nat} {env : Env} {w : W}
  {lv : W → I64} {shown : W → Str}

theorem run_logLines {ev0 : Expr → M W Expr} (hc : Console H shown) (pre : Str) (ls : List Str) :
    ∀ w, ∃ w', (Builtins.logLines pre ls).run H ev0 env w = (.ok (), env, w') ∧
      shown w' = shown w ++ linesText pre ls := by
  induction ls with
  | nil => intro w; exact ⟨w, rfl, by simp [linesText]⟩
  | cons l ls ih =>
    intro w
    cases ls with
    | nil =>
      rw [Builtins.logLines, linesText]
      by_cases h : l.isEmpty
      · rw [if_pos h, if_pos h]
        exact ⟨w, rfl, by simp⟩
      · rw [if_neg h, if_neg h]
        exact ⟨_, run_out_shown hc _, hc.print _ _⟩
    | cons m ls =>
      rw [Builtins.logLines, linesText]
      obtain ⟨w2, e2, s2⟩ := ih (H.io (.print (pre ++ l ++ c!"\n")) w).2
      refine ⟨w2, ?_, ?_⟩
      · rw [BProg.run_bind, M.bind_ok (run_out_shown hc _)]
        exact e2
      · rw [s2, hc.print]
        simp

theorem run_logLoop {ev0 : Expr → M W Expr} (hc : Console H shown) (pre : Str) {args vs : List Expr}
    (ha : List.Forall₂ (Quiet ev0 shown env) args vs) :
    ∀ nl w, ∃ w', (Builtins.logLoop P pre nl args).run H ev0 env w = (.ok .none, env, w') ∧
      shown w' = shown w ++ pieces pre nl (vs.map (display P)) := by
  induction ha with
  | nil => intro nl w; exact ⟨w, rfl, by simp [pieces]⟩
  | @cons a v as vs h1 h2 ih =>
    intro nl w
    obtain ⟨w1, e1, s1⟩ := h1 w
    have he : as.isEmpty = (vs.map (display P)).isEmpty := by cases h2 <;> rfl
    have hd : decide ((display P v).getLast? = some '\n') =
        ((display P v).getLast? == some '\n') := by
      rw [Bool.eq_iff_iff]
      simp
    by_cases hm : '\n' ∈ display P v
    · obtain ⟨w2, e2, s2⟩ := run_logLines (env := env) (ev0 := ev0) hc pre
        (splitStr c!"\n" (display P v)) w1
      obtain ⟨w3, e3, s3⟩ := ih ((display P v).getLast? == some '\n') w2
      refine ⟨w3, ?_, ?_⟩
      · simp only [Builtins.logLoop, BProg.run_bind, BProg.run_ev]
        rw [M.bind_ok e1, if_pos (split_long hm), BProg.run_bind, M.bind_ok e2, hd]
        exact e3
      · rw [s3, s2, s1, List.map_cons, pieces, if_pos hm, List.append_nil, splitStr,
          if_neg (by decide), linesText_go, if_pos rfl]
        simp [hm]
    · have hsep : (if as.isEmpty then c!"\n" else c!" ") =
          if vs.map (display P) = [] then ['\n'] else [' '] := by
        rw [he]
        cases vs <;> rfl
      have hX : vs.map (display P) = [] ∨ vs.map (display P) ≠ [] := by
        cases vs <;> simp
      have hx : (if vs.map (display P) = [] then ['\n'] else [' ']) = ['\n'] ∨
          (if vs.map (display P) = [] then ['\n'] else [' ']) = [' '] := by
        rcases hX with h | h <;> simp [h]
      cases hnl : nl with
      | true =>
        obtain ⟨w3, e3, s3⟩ := ih ((display P v).getLast? == some '\n')
          (H.io (.print (display P v ++ if as.isEmpty then c!"\n" else c!" "))
            (H.io (.print pre) w1).2).2
        refine ⟨w3, ?_, ?_⟩
        · simp only [Builtins.logLoop, BProg.run_bind, BProg.run_ev]
          rw [M.bind_ok e1, split_newline hm]
          simp only [List.length_cons, List.length_nil, Nat.lt_irrefl, Nat.zero_add, if_false, if_true,
            BProg.run_bind]
          rw [M.bind_ok (run_out_shown hc _), M.bind_ok (run_out_shown hc _), hd]
          exact e3
        · rw [s3, hc.print, hc.print, s1, List.map_cons, pieces, if_neg hm, hsep]
          have := marked_line (pre := pre) (nl := nl) hm hx
          simp only [hnl, List.map_eq_nil_iff] at this
          simp [hm, this]
      | false =>
        obtain ⟨w3, e3, s3⟩ := ih ((display P v).getLast? == some '\n')
          (H.io (.print (display P v ++ if as.isEmpty then c!"\n" else c!" ")) w1).2
        refine ⟨w3, ?_, ?_⟩
        · simp only [Builtins.logLoop, BProg.run_bind, BProg.run_ev]
          rw [M.bind_ok e1, split_newline hm]
          simp only [List.length_cons, List.length_nil, Nat.lt_irrefl, Nat.zero_add, if_false,
            Bool.false_eq_true, BProg.run_bind, BProg.run_ret]
          rw [M.bind_ok (a := ()) (env' := env) (w' := w1) rfl, M.bind_ok (run_out_shown hc _), hd]
          exact e3
        · rw [s3, hc.print, s1, List.map_cons, pieces, if_neg hm, hsep]
          have := marked_line (pre := pre) (nl := nl) hm hx
          simp only [hnl, List.map_eq_nil_iff] at this
          simp [hm, this]

theorem run_log (hs : Std env) (hl : LogHost H lv) (hc : Console H shown) {f pre : Str} {k : I64}
    (hf : (f, k, pre) ∈ logPrefix) (hk : k.val ≤ (lv w).val) {args vs : List Expr}
    (ha : List.Forall₂ (Quiet (evalN P H (stdB P L) n) shown env) args vs) :
    ∃ w', evalN P H (stdB P L) (n + 1) (call c!"log" f args) env w = (.ok .none, env, w') ∧
      shown w' = shown w ++ pieces pre true (vs.map (display P)) := by
  have key : ∀ color name, pre = c!"\x1b[" ++ color ++ c!"m[" ++ name ++ c!"]\x1b[m " → 0 < k.val →
      ∃ w', (Builtins.logB P k color name args).run H (evalN P H (stdB P L) n) env w =
          (.ok .none, env, w') ∧
        shown w' = shown w ++ pieces pre true (vs.map (display P)) := by
    intro color name hp h0
    obtain ⟨w', e, s⟩ := run_logLoop (P := P) hc pre ha true w
    refine ⟨w', ?_, s⟩
    rw [Builtins.logB, BProg.run_bind, M.bind_ok (run_logEnabled hl h0), decide_eq_true hk, if_pos rfl,
      ← hp]
    exact e
  simp only [logPrefix, List.mem_cons, Prod.mk.injEq, List.not_mem_nil, or_false] at hf
  rcases hf with ⟨rfl, rfl, rfl⟩ | ⟨rfl, rfl, rfl⟩ | ⟨rfl, rfl, rfl⟩ | ⟨rfl, rfl, rfl⟩ |
    ⟨rfl, rfl, rfl⟩ <;>
  · lib hs, Init.logM
    rw [evalN_builtin]
    exact key _ _ rfl (by decide)

/-- C57, an enabled log call shows the texts of its arguments with the prefix of its level at the start
of every line, if texts with line ends stand at the start of a line. -/
theorem C57_lines (hs : Std env) (hl : LogHost H lv) (hc : Console H shown) {f pre : Str} {k : I64}
    (hf : (f, k, pre) ∈ logPrefix) (hk : k.val ≤ (lv w).val) {args vs : List Expr}
    (ha : List.Forall₂ (Quiet (evalN P H (stdB P L) n) shown env) args vs)
    (hp : Placed (vs.map (display P))) :
    ∃ w', evalN P H (stdB P L) (n + 1) (call c!"log" f args) env w = (.ok .none, env, w') ∧
      shown w' = shown w ++ marked pre true (message (vs.map (display P))) := by
  obtain ⟨w', e, s⟩ := run_log hs hl hc hf hk ha
  exact ⟨w', e, by rw [s, pieces_eq _ _ (fun _ _ _ => rfl) hp]⟩

/-- C57, arguments without line ends are one line: the prefix and the texts with single spaces between
them. -/
theorem C57_one_line (hs : Std env) (hl : LogHost H lv) (hc : Console H shown) {f pre : Str} {k : I64}
    (hf : (f, k, pre) ∈ logPrefix) (hk : k.val ≤ (lv w).val) {args vs : List Expr}
    (ha : List.Forall₂ (Quiet (evalN P H (stdB P L) n) shown env) args vs) (hne : args ≠ [])
    (hp : ∀ v ∈ vs, '\n' ∉ display P v) :
    ∃ w', evalN P H (stdB P L) (n + 1) (call c!"log" f args) env w = (.ok .none, env, w') ∧
      shown w' = shown w ++ pre ++ spaced (vs.map (display P)) ++ ['\n'] := by
  have hts : ∀ t ∈ vs.map (display P), '\n' ∉ t := by
    intro t ht
    obtain ⟨v, hv, rfl⟩ := List.mem_map.1 ht
    exact hp v hv
  have hvs : vs.map (display P) ≠ [] := by
    intro h
    cases ha with
    | nil => exact hne rfl
    | cons => simp at h
  obtain ⟨h1, h2, h3⟩ := message_plain _ hvs hts
  obtain ⟨w', e, s⟩ := C57_lines hs hl hc hf hk ha h3
  refine ⟨w', e, ?_⟩
  rw [s, h1, marked_line h2 (.inl rfl)]
  simp

/-- C57, (exception) a text with line ends after one without gets the prefix in the middle of the
line, too. -/
theorem C57_mid_line (hs : Std env) (hl : LogHost H lv) (hc : Console H shown) {f pre : Str} {k : I64}
    (hf : (f, k, pre) ∈ logPrefix) (hk : k.val ≤ (lv w).val) {a b u v : Expr}
    (ha : Quiet (evalN P H (stdB P L) n) shown env a u)
    (hb : Quiet (evalN P H (stdB P L) n) shown env b v)
    (hu : '\n' ∉ display P u) (hv : '\n' ∈ display P v) :
    ∃ w', evalN P H (stdB P L) (n + 1) (call c!"log" f [a, b]) env w = (.ok .none, env, w') ∧
      shown w' = shown w ++ pre ++ display P u ++ [' '] ++ marked pre true (display P v) := by
  obtain ⟨w', e, s⟩ := run_log hs hl hc hf hk (.cons ha (.cons hb .nil))
  refine ⟨w', e, ?_⟩
  rw [s]
  have := marked_line (pre := pre) (nl := true) hu (.inr rfl)
  simp [pieces, hu, hv, this]

end

/-- The level of the examples. -/
def demoLevel : I64 := .lit 3

/-- A world with a log level and the text shown so far. -/
def demoLogText : Host (I64 × Str) where
  io op w := match op with
    | .getLogLevel => (.int w.1, w)
    | .setLogLevel l => (.unit, l, w.2)
    | .print s => (.unit, w.1, w.2 ++ s)
    | _ => (.unit, w)

theorem demoLogText_log : LogHost demoLogText (fun w => w.1) where
  get _ := rfl
  set _ _ := rfl
  other op w h := by
    cases op <;> first | rfl | exact absurd rfl (h _)

theorem demoLogText_console : Console demoLogText (fun w => w.2) where
  open_ _ _ _ := by simp [demoLogText]
  print _ _ := rfl

/-- Texts as arguments. -/
theorem demo_texts_quiet (ts : List Str) :
    List.Forall₂ (Quiet (evalN Demo.plat demoLogText (stdB Demo.plat Demo.lib) 1) (fun w => w.2) Demo.env)
      (ts.map .str) (ts.map .str) := by
  induction ts with
  | nil => exact .nil
  | cons t ts ih => exact .cons (fun w => ⟨w, rfl, rfl⟩) ih

example : ∃ w', evalN Demo.plat demoLogText (stdB Demo.plat Demo.lib) 2
      (call c!"log" c!"warn" [.str c!"a\n", .str c!"b", .str c!"c"]) Demo.env (demoLevel, c!"> ") =
        (.ok .none, Demo.env, w') ∧
      w'.2 = c!"> \x1b[93m[WARN]\x1b[m a\n\x1b[93m[WARN]\x1b[m b c\n" :=
  C57_lines (P := Demo.plat) (L := Demo.lib) (n := 1) (w := (demoLevel, c!"> ")) (f := c!"warn") (k := .lit 2)
    (pre := c!"\x1b[93m[WARN]\x1b[m ") demo_std demoLogText_log demoLogText_console (by simp [logPrefix])
    (by decide)
    (demo_texts_quiet [c!"a\n", c!"b", c!"c"])
    (List.isChain_cons_cons.2 ⟨fun _ => rfl, List.isChain_cons_cons.2 ⟨by decide, .singleton _⟩⟩)

example : ∃ w', evalN Demo.plat demoLogText (stdB Demo.plat Demo.lib) 2
      (call c!"log" c!"info" [.str c!"b", .str c!"c"]) Demo.env (demoLevel, []) =
        (.ok .none, Demo.env, w') ∧ w'.2 = c!"\x1b[92m[INFO]\x1b[m b c\n" :=
  C57_one_line (P := Demo.plat) (L := Demo.lib) (n := 1) (w := (demoLevel, [])) (f := c!"info") (k := .lit 3)
    (pre := c!"\x1b[92m[INFO]\x1b[m ") demo_std demoLogText_log demoLogText_console (by simp [logPrefix])
    (by decide)
    (demo_texts_quiet [c!"b", c!"c"]) (by simp) (by
      intro v hv
      simp only [List.map_cons, List.map_nil, List.mem_cons, List.not_mem_nil, or_false] at hv
      rcases hv with rfl | rfl <;> decide)

example : ∃ w', evalN Demo.plat demoLogText (stdB Demo.plat Demo.lib) 2
      (call c!"log" c!"error" [.str c!"b", .str c!"c\nd"]) Demo.env (demoLevel, []) =
        (.ok .none, Demo.env, w') ∧
      w'.2 = c!"\x1b[91m[ERROR]\x1b[m b \x1b[91m[ERROR]\x1b[m c\n\x1b[91m[ERROR]\x1b[m d" :=
  C57_mid_line (P := Demo.plat) (L := Demo.lib) (n := 1) (w := (demoLevel, [])) (f := c!"error") (k := .lit 1)
    (pre := c!"\x1b[91m[ERROR]\x1b[m ")
    (u := .str c!"b") (v := .str c!"c\nd") demo_std demoLogText_log demoLogText_console (by simp [logPrefix])
    (by decide)
    (fun w => ⟨w, rfl, rfl⟩) (fun w => ⟨w, rfl, rfl⟩) (by decide) (by decide)

end Dune.Props
