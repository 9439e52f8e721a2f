import Verif.Proof.Prompt
import Verif.Props.Errors

/-! Property C61: the interactive prompt evaluates exactly the accepted texts, each once. -/

namespace Dune.Props

open Spec Repl

variable {W : Type} {P : Plat} {H : Host W} {ev : Expr → M W Expr}

/-- C61: whatever lines are typed, there is exactly one way to split them into chunks (each ending at
the first line with which its text is a script, or at its first empty line) and a rest, which is
still waiting or makes the parser crash. -/
theorem C61_split (P : Plat) (ls : List Str) : ∃ (cs : List Chunk) (rest : List Str),
    (ls = cs.flatMap Chunk.lines ++ rest ∧ (∀ c ∈ cs, c.Ok (parseText P)) ∧
      (Waiting (parseText P) rest ∨ Crash (parseText P) rest)) ∧
    ∀ (cs' : List Chunk) (rest' : List Str),
      (ls = cs'.flatMap Chunk.lines ++ rest' ∧ (∀ c ∈ cs', c.Ok (parseText P)) ∧
        (Waiting (parseText P) rest' ∨ Crash (parseText P) rest')) → cs' = cs ∧ rest' = rest := by
  obtain ⟨cs, rest, h1, h2, h3⟩ := chunks_exist (parse := parseText P) ls [] waiting_nil
  rw [List.nil_append] at h1
  exact ⟨cs, rest, ⟨h1, h2, h3⟩, fun cs' rest' ⟨h1', h2', h3'⟩ =>
    chunks_unique (h1'.symm.trans h1) h2' h2 h3' h3⟩

/-- The line a reading yields: Ctrl-C yields an empty one. -/
def typed (r : Reading) : Str :=
  match r.answer with
  | .line s => s
  | _ => []

/-- Ctrl-D was not pressed. -/
def GivesLine (r : Reading) : Prop :=
  match r.answer with
  | .eof => False
  | _ => True

/-- Ask for a line. -/
def askLine (P : Plat) (H : Host W) (ev : Expr → M W Expr) (pending : List Str) (r : Reading) :
    M W Str := do
  let _ ← prompt P ev pending
  readline H r

/-- Ask for lines, the first with the normal prompt, the others with that for incomplete input. -/
def askLines (P : Plat) (H : Host W) (ev : Expr → M W Expr) : List Str → List Reading → M W Unit
  | _, [] => pure ()
  | pending, r :: rs => do
    let l ← askLine P H ev pending r
    askLines P H ev (pending ++ [l]) rs

/-- What happens when a chunk is complete. -/
def finish (P : Plat) (H : Host W) (ev : Expr → M W Expr) : Chunk → M W Unit
  | .run _ e => runAccepted P H ev e
  | .drop _ e => eprintError P H e

/-- A whole session: ask for the lines of each chunk, then finish it. -/
def session (P : Plat) (H : Host W) (ev : Expr → M W Expr) : List (List Reading × Chunk) → M W Unit
  | [] => pure ()
  | (rs, c) :: cs => do
    askLines P H ev [] rs
    finish P H ev c
    session P H ev cs

theorem readline_typed {r : Reading} (h : GivesLine r) :
    readline H r = (do reportFailed H r.failed; pure (typed r)) := by
  obtain ⟨f, a⟩ := r
  cases a with
  | line s => rfl
  | interrupted => rfl
  | eof => exact h.elim

theorem iteration_eq {pending : List Str} {r : Reading} (h : GivesLine r) :
    iteration P H ev pending r =
      (do let _ ← askLine P H ev pending r; takeLine P H ev pending (typed r)) := by
  rw [iteration, askLine, readline_typed h]
  simp only [bind_assoc, pure_bind]

theorem askLines_cons {pending : List Str} {r : Reading} {rs : List Reading} (h : GivesLine r) :
    askLines P H ev pending (r :: rs) =
      (do let _ ← askLine P H ev pending r; askLines P H ev (pending ++ [typed r]) rs) := by
  rw [askLines, askLine, readline_typed h]
  simp only [bind_assoc, pure_bind]

/-- While the lines keep waiting, the loop only asks. -/
theorem loop_waiting {rs rest : List Reading} {pending : List Str} (h : ∀ r ∈ rs, GivesLine r)
    (hw : Waiting (parseText P) (pending ++ rs.map typed)) :
    loop P H ev pending (rs ++ rest) =
      (do askLines P H ev pending rs; loop P H ev (pending ++ rs.map typed) rest) := by
  induction rs generalizing pending with
  | nil => simp [askLines]
  | cons r rs ih =>
    simp only [List.forall_mem_cons] at h
    obtain ⟨h0, e, he⟩ := hw pending (typed r) (rs.map typed) rfl
    rw [List.cons_append, loop, iteration_eq h.1, askLines_cons h.1]
    simp only [bind_assoc]
    congr 1
    funext l
    have : takeLine P H ev pending (typed r) = pure (pending ++ [typed r]) := by
      rw [takeLine, joinStr_eq, he]
      simp [h0]
    rw [this]
    simp only [pure_bind]
    rw [ih h.2 (by simpa using hw)]
    simp

/-- C61: the loop, on the readings of any sequence of chunks, asks for the lines of each chunk and
then evaluates it once, if it was accepted, or reports the error, if it was given up; then it
continues with nothing pending. -/
theorem C61_session {cs : List (List Reading × Chunk)} {rest : List Reading}
    (h : ∀ c ∈ cs, c.2.Ok (parseText P) ∧ (∀ r ∈ c.1, GivesLine r) ∧ c.1.map typed = c.2.lines) :
    loop P H ev [] (cs.flatMap Prod.fst ++ rest) =
      (do session P H ev cs; loop P H ev [] rest) := by
  induction cs with
  | nil => simp [session]
  | cons c cs ih =>
    obtain ⟨rs, c⟩ := c
    simp only [List.forall_mem_cons] at h
    obtain ⟨⟨hok, hl, ht⟩, h⟩ := h
    obtain ⟨ls, l, h1, h2, h3, h4⟩ := ok_cases hok
    rw [h1] at ht
    obtain ⟨rs1, r2, rfl, h5, h6⟩ := List.map_eq_append_iff.1 ht
    obtain ⟨r, rs2, rfl, h7, h8⟩ := List.map_eq_cons_iff.1 h6
    rw [List.map_eq_nil_iff] at h8
    subst h8
    subst h5
    have hr : GivesLine r := hl r (by simp)
    have ha : ∀ {pending : List Str}, askLines P H ev pending (rs1 ++ [r]) =
        (do askLines P H ev pending rs1; let _ ← askLine P H ev (pending ++ rs1.map typed) r; pure ()) := by
      intro pending
      have hl1 : ∀ x ∈ rs1, GivesLine x := fun x hx => hl x (by simp [hx])
      clear ht hok h1 h2 h3 h4 h6 hl
      induction rs1 generalizing pending with
      | nil =>
        rw [List.nil_append, askLines_cons hr]
        simp [askLines]
      | cons x xs ih =>
        simp only [List.forall_mem_cons] at hl1
        rw [List.cons_append, askLines_cons hl1.1, askLines_cons hl1.1]
        simp only [bind_assoc]
        congr 1
        funext l
        rw [ih hl1.2]
        simp
    rw [List.flatMap_cons, List.append_assoc, session, List.append_assoc,
      loop_waiting (fun x hx => hl x (by simp [hx])) (by simpa using h2), ha]
    simp only [bind_assoc, pure_bind, List.nil_append]
    congr 1
    funext _
    rw [List.singleton_append, loop, iteration_eq hr, h7]
    simp only [bind_assoc]
    congr 1
    funext _
    rw [← ih h, takeLine, joinStr_eq]
    rcases h4 with ⟨e, hp, hc⟩ | ⟨e, hp, hc⟩
    · rw [hp, hc, finish]
      simp only [bind_assoc, pure_bind]
    · have h0 : l = [] := Classical.byContradiction fun h0 => h3 ⟨h0, e, hp⟩
      rw [hp, hc, finish]
      simp only [h0, if_true, bind_assoc, pure_bind]

/-- C61: while the rest of the lines keeps waiting, nothing is evaluated (but the prompt), and
Ctrl-D then leaves the shell. -/
theorem C61_waiting {rs : List Reading} (h : ∀ r ∈ rs, GivesLine r)
    (hw : Waiting (parseText P) (rs.map typed)) :
    loop P H ev [] rs = (do askLines P H ev [] rs; pure (rs.map typed)) ∧
    ∀ msgs rest, loop P H ev [] (rs ++ ⟨msgs, .eof⟩ :: rest) = (do
      askLines P H ev [] rs
      let _ ← prompt P ev (rs.map typed)
      reportFailed H msgs
      M.lift (.exit 0)) := by
  constructor
  · have := loop_waiting (H := H) (ev := ev) (rest := []) h (pending := []) (by simpa using hw)
    rw [List.append_nil] at this
    rw [this]
    rfl
  · intro msgs rest
    rw [loop_waiting h (pending := []) (by simpa using hw)]
    congr 1
    funext _
    rw [loop, iteration]
    simp only [readline, bind_assoc, List.nil_append]
    congr 1

/-- every accepted text is a sequence of statements -/
theorem parseText_do {src : Str} {e : Expr} (h : parseText P src = .ok e) : ∃ l, e = .do_ l := by
  rw [parseText] at h
  split at h <;> simp only [Outcome.ok.injEq, reduceCtorEq] at h
  rename_i e' he
  subst h
  cases scriptCase P src with
  | panic _ _ h' => rw [h'] at he; simp at he
  | invalid _ _ _ h' => rw [h'] at he; simp at he
  | clash _ _ _ _ h' => rw [h'] at he; simp at he
  | reads _ _ _ _ _ h' =>
    rw [h', Parse.scriptN] at he
    split at he <;> simp only [Parse.Result.ok.injEq, reduceCtorEq] at he
    rename_i i e'' hs
    subst he
    rw [Parse.parseScriptTokens] at hs
    obtain ⟨i1, l, _, hs⟩ := Parse.PR.bind_ok_inv hs
    obtain ⟨i2, last, _, hs⟩ := Parse.PR.bind_ok_inv hs
    simp only [if_true] at hs
    obtain ⟨i3, u, _, hs⟩ := Parse.PR.bind_ok_inv hs
    simp only [Parse.PR.ok.injEq] at hs
    exact ⟨_, hs.2.symm⟩

/-- An evaluator that records what it is given. -/
def recorder : Expr → M (List Expr) Expr := fun e env w => (.ok .none, env, w ++ [e])

/-- A terminal that ignores everything. -/
def silent : Host (List Expr) := ⟨fun _ w => (.unit, w)⟩

/-- A script, as opposed to the call of a prompt function. -/
def isScript : Expr → Bool
  | .do_ _ => true
  | _ => false

/-- The user types this line. -/
def enter (l : Str) : Reading := ⟨[], .line l⟩

private theorem askLine_record (pending : List Str) (l : Str) (env : Env) (w : List Expr) :
    ∃ t, askLine P silent recorder pending (enter l) env w = (.ok l, env, w ++ t) ∧
      t.filter isScript = [] := by
  refine ⟨[.apply (.symbol (if pending = [] then c!"prompt" else c!"incomplete_prompt"))
    [.str env.getCwd]], ?_, rfl⟩
  simp only [askLine, prompt, bind_assoc]
  rfl

private theorem askLines_record (ls : List Str) : ∀ (pending : List Str) (env : Env) (w : List Expr),
    ∃ t, askLines P silent recorder pending (ls.map enter) env w = (.ok (), env, w ++ t) ∧
      t.filter isScript = [] := by
  induction ls with
  | nil => exact fun pending env w => ⟨[], by simp [askLines], rfl⟩
  | cons l ls ih =>
    intro pending env w
    obtain ⟨t, h1, h2⟩ := askLine_record (P := P) pending l env w
    obtain ⟨t', h3, h4⟩ := ih (pending ++ [l]) env (w ++ t)
    refine ⟨t ++ t', ?_, by rw [List.filter_append, h2, h4]; rfl⟩
    rw [List.map_cons, askLines, M.bind_ok h1, h3, List.append_assoc]

private theorem finish_record (hP : P.overflowChecks = false) {c : Chunk} (h : c.Ok (parseText P))
    (env : Env) (w : List Expr) : ∃ t, finish P silent recorder c env w = (.ok (), env, w ++ t) ∧
      t.filter isScript = Chunk.scripts [c] := by
  cases h with
  | @run ls l e hw hp =>
    obtain ⟨l, rfl⟩ := parseText_do hp
    exact ⟨[.do_ l], rfl, rfl⟩
  | @drop ls e hw hp =>
    obtain ⟨msg, hm⟩ := C65_renders hp (.inl hP)
    refine ⟨[], ?_, rfl⟩
    rw [finish, eprintError, hm]
    simp only [List.append_nil]
    rfl

private theorem session_record (hP : P.overflowChecks = false) {cs : List Chunk}
    (h : ∀ c ∈ cs, c.Ok (parseText P)) : ∀ (env : Env) (w : List Expr),
    ∃ t, session P silent recorder (cs.map fun c => (c.lines.map enter, c)) env w =
        (.ok (), env, w ++ t) ∧ t.filter isScript = Chunk.scripts cs := by
  induction cs with
  | nil => exact fun env w => ⟨[], by simp [session], rfl⟩
  | cons c cs ih =>
    intro env w
    simp only [List.forall_mem_cons] at h
    obtain ⟨t1, h1, h1'⟩ := askLines_record (P := P) c.lines [] env w
    obtain ⟨t2, h2, h2'⟩ := finish_record hP h.1 env (w ++ t1)
    obtain ⟨t3, h3, h3'⟩ := ih h.2 env (w ++ t1 ++ t2)
    refine ⟨t1 ++ t2 ++ t3, ?_, ?_⟩
    · rw [List.map_cons, session, M.bind_ok h1, M.bind_ok h2, h3]
      simp
    · rw [List.filter_append, List.filter_append, h1', h2', h3']
      cases c <;> rfl

/-- C61: for any sequence of typed lines, the scripts handed to the evaluator are exactly those of
the accepted chunks, in this order, each once.  (With overflow checks, see C65, reporting an error
may crash before the next line is read.) -/
theorem C61_once (hP : P.overflowChecks = false) {ls : List Str} {cs : List Chunk} {rest : List Str}
    (hls : ls = cs.flatMap Chunk.lines ++ rest) (hcs : ∀ c ∈ cs, c.Ok (parseText P))
    (hrest : Waiting (parseText P) rest ∨ Crash (parseText P) rest) (env : Env) :
    ((loop P silent recorder [] (ls.map enter) env []).2.2).filter isScript = Chunk.scripts cs := by
  have hmap : ls.map enter =
      (cs.map fun c => (c.lines.map enter, c)).flatMap Prod.fst ++ rest.map enter := by
    rw [hls, List.map_append, List.flatMap_map, List.map_flatMap]
  have henter : ∀ ls : List Str, (ls.map enter).map typed = ls ∧ ∀ r ∈ ls.map enter, GivesLine r := by
    intro ls
    constructor
    · rw [List.map_map]
      exact List.map_id _
    · intro r hr
      obtain ⟨l, _, rfl⟩ := List.mem_map.1 hr
      trivial
  obtain ⟨t, h1, h2⟩ := session_record hP hcs env []
  rw [hmap, C61_session (fun c hc => by
    obtain ⟨c', hc', rfl⟩ := List.mem_map.1 hc
    exact ⟨hcs c' hc', (henter _).2, (henter _).1⟩), M.bind_ok h1]
  rcases hrest with hw | ⟨pre, l, post, rfl, hw, hno, hne⟩
  · obtain ⟨t', h3, h4⟩ := askLines_record (P := P) rest [] env ([] ++ t)
    rw [(C61_waiting (henter rest).2 (by rwa [(henter rest).1])).1, M.bind_ok h3]
    simp [h2, h4]
  · obtain ⟨t', h3, h4⟩ := askLines_record (P := P) pre [] env ([] ++ t)
    obtain ⟨t'', h5, h6⟩ := askLine_record (P := P) pre l env ([] ++ t ++ t')
    rw [List.map_append, loop_waiting (henter pre).2 (pending := [])
      (by rw [(henter pre).1]; exact hw), M.bind_ok h3, (henter pre).1, List.map_cons, loop,
      iteration_eq (show GivesLine (enter l) from trivial)]
    simp only [bind_assoc, List.nil_append]
    rw [List.nil_append] at h5
    rw [M.bind_ok h5]
    have : takeLine P silent recorder pre (typed (enter l)) env (t ++ t' ++ t'') =
          (.panic, env, t ++ t' ++ t'') ∨
        (∃ c, takeLine P silent recorder pre (typed (enter l)) env (t ++ t' ++ t'') =
          (.exit c, env, t ++ t' ++ t'')) ∨
        takeLine P silent recorder pre (typed (enter l)) env (t ++ t' ++ t'') =
          (.noFuel, env, t ++ t' ++ t'') := by
      rw [takeLine, joinStr_eq]
      rw [show typed (enter l) = l from rfl]
      cases hq : parseText P (textOfLines (pre ++ [l])) with
      | ok e => exact absurd hq (hno e)
      | err e => exact absurd hq (hne e)
      | panic => exact .inl rfl
      | exit c => exact .inr (.inl ⟨c, rfl⟩)
      | noFuel => exact .inr (.inr rfl)
    rcases this with h | ⟨c, h⟩ | h
    · rw [M.bind_panic h]
      simp [h2, h4, h6]
    · rw [M.bind_exit h]
      simp [h2, h4, h6]
    · rw [M.bind_noFuel h]
      simp [h2, h4, h6]

theorem waiting_one {l : Str} {e : Error} (h0 : l ≠ []) (h : parseText P l = .err e) :
    Waiting (parseText P) [l] := by
  have : textOfLines ([] ++ [l]) = l := by simp [textOfLines, List.intercalate]
  exact waiting_snoc waiting_nil h0 (e := e) (by rw [this, h])

/-- A session of two chunks: a definition over two lines, and a mistake given up. -/
def demoChunks : List Chunk :=
  [.run [c!"let x =", c!"5"] (.do_ [.assign c!"x" (.int (.lit 5))]),
    .drop [c!")", []] (.syntaxError c!")\n" (.expected ⟨0, 1⟩ c!"end of input" none))]

set_option maxRecDepth 100000 in
theorem demoChunks_ok (P : Plat) : ∀ c ∈ demoChunks, c.Ok (parseText P) := by
  have h1 : Waiting (parseText P) [c!"let x ="] := waiting_one (by decide)
    (e := .syntaxError c!"let x =" (.expected ⟨0, 3⟩ c!"end of input" none)) rfl
  have h2 : Waiting (parseText P) [c!")"] := waiting_one (by decide)
    (e := .syntaxError c!")" (.expected ⟨0, 1⟩ c!"end of input" none)) rfl
  simp only [demoChunks, List.mem_cons, List.not_mem_nil, or_false]
  rintro c (rfl | rfl)
  · exact .run (l := c!"5") h1 rfl
  · exact .drop h2 rfl

example (P : Plat) (env : Env) (hP : P.overflowChecks = false) :
    ((loop P silent recorder [] ([c!"let x =", c!"5", c!")", [], c!"for"].map enter) env []).2.2).filter
      isScript = [.do_ [.assign c!"x" (.int (.lit 5))]] :=
  C61_once hP (cs := demoChunks) (rest := [c!"for"]) rfl (demoChunks_ok P)
    (.inl (waiting_one (by decide)
      (e := .syntaxError c!"for" (.expected ⟨3, 3⟩ c!"symbol" none)) (by
        set_option maxRecDepth 100000 in rfl))) env

end Dune.Props
