import Verif.Model.Chess
import Verif.Props.Text

/-! `chess`. -/

namespace Dune.Props

open Chess

/-! ### Specification -/

/-- The text without the white space around it. -/
def Core (s t : Str) : Prop := ∃ x y, s = x ++ t ++ y ∧ Blank x ∧ Blank y ∧
  (∀ c, t.head? = some c → ¬ Space c) ∧ ∀ c, t.getLast? = some c → ¬ Space c

def quitWords : List Str := [c!"q", c!"quit", c!"exit"]

/-- How a game ends: with a value, or with the shell, at the end of the input. -/
inductive GameEnd
  | over (won : Bool)
  | left

/-- What is said: a line, to standard output (`true`) or to standard error. -/
abbrev Said := List (Bool × Str)

variable {W B Mv : Type}

/-- What comes of a move. -/
inductive Comes (E : Engine B Mv) (me : Color) (b : B) (m : Mv) : Except GameEnd B → Said → Prop
  | goes {b' : B} : E.play b m = .continuing b' → Comes E me b m (.ok b') []
  | refused : E.play b m = .illegal → Comes E me b m (.ok b) [(false, E.move m ++ c!" is an illegal move.")]
  | mate {w : Color} : E.play b m = .victory w → Comes E me b m (.error (.over (decide (w = me))))
      [(true, E.board b), (true, c!"Checkmate! " ++ E.color (if w = .white then .black else .white) ++ c!" loses. " ++
        E.color w ++ c!" is victorious!")]
  | draw : E.play b m = .stalemate → Comes E me b m (.error (.over false)) [(true, c!"Drawn game.")]

/-- One round, with the lines that are there and those that are left. -/
inductive Round (E : Engine B Mv) (me : Color) (b : B) : List Str → List Str → Except GameEnd B → Said → Prop
  | machine {ls r o} : E.turn b ≠ me → Comes E me b (E.best b) r o →
      Round E me b ls ls r ((true, c!"Waiting for CPU to annihilate your position...") :: o)
  | move {s t m ls r o} : E.turn b = me → Core s t → t ≠ [] → t ∉ quitWords → E.parse t = .ok m → Comes E me b m r o →
      Round E me b (s :: ls) ls r ((true, c!"Your move!\n" ++ E.board b) :: o)
  | noMove {s t e ls} : E.turn b = me → Core s t → t ≠ [] → t ∉ quitWords → E.parse t = .error e →
      Round E me b (s :: ls) ls (.ok b) [(true, c!"Your move!\n" ++ E.board b), (false, e)]
  | nothing {s ls} : E.turn b = me → Blank s →
      Round E me b (s :: ls) ls (.ok b) [(true, c!"Your move!\n" ++ E.board b), (false, c!"That's not a move!")]
  | quits {s t ls} : E.turn b = me → Core s t → t ∈ quitWords →
      Round E me b (s :: ls) ls (.error (.over false)) [(true, c!"Your move!\n" ++ E.board b), (true, c!"Bye!")]
  | leaves : E.turn b = me → Round E me b [] [] (.error .left) [(true, c!"Your move!\n" ++ E.board b)]

/-- A game, from a board to its end. -/
inductive Course (E : Engine B Mv) (me : Color) : B → List Str → List Str → GameEnd → Said → Prop
  | last {b ls rest e o} : Round E me b ls rest (.error e) o → Course E me b ls rest e o
  | more {b b' ls ls' rest e o o'} : Round E me b ls ls' (.ok b') o → Course E me b' ls' rest e o' →
      Course E me b ls rest e (o ++ o')

/-- Legal moves from a board to the victory of a color; those of the player were typed. -/
inductive Wins (E : Engine B Mv) (me : Color) (typed : List Str) : B → List Mv → Prop
  | last {b m} : E.play b m = .victory me → (E.turn b = me → ∃ s ∈ typed, ∃ t, Core s t ∧ E.parse t = .ok m) →
      (E.turn b ≠ me → m = E.best b) → Wins E me typed b [m]
  | cons {b m b' ms} : E.play b m = .continuing b' → (E.turn b = me → ∃ s ∈ typed, ∃ t, Core s t ∧ E.parse t = .ok m) →
      (E.turn b ≠ me → m = E.best b) → Wins E me typed b' ms → Wins E me typed b (m :: ms)

/-- Someone who types lines, then ends the input, and reads what is said. -/
structure Player (H : Host W) (typed : W → List Str) (said : W → Said) : Prop where
  print (s : Str) (w : W) : ∃ w', H.io (.print (s ++ c!"\n")) w = (.unit, w') ∧ typed w' = typed w ∧
    said w' = said w ++ [(true, s)]
  eprint (s : Str) (w : W) : ∃ w', H.io (.eprint (s ++ c!"\n")) w = (.unit, w') ∧ typed w' = typed w ∧
    said w' = said w ++ [(false, s)]
  line (p s : Str) (ls : List Str) (w : W) : typed w = s :: ls →
    ∃ w', H.io (.editLine p) w = (.str s, w') ∧ typed w' = ls ∧ said w' = said w
  eof (p : Str) (w : W) : typed w = [] → ∃ w', H.io (.editLine p) w = (.unit, w') ∧ typed w' = [] ∧ said w' = said w

/-- What `chess` gives. -/
def GameEnd.outcome : GameEnd → Outcome Expr
  | .over won => .ok (.bool won)
  | .left => .exit 0

/-- The word for a color, as a name or as a text. -/
inductive ColorWord : Expr → Color → Prop
  | whiteName : ColorWord (.symbol c!"white") .white
  | whiteText : ColorWord (.str c!"white") .white
  | blackName : ColorWord (.symbol c!"black") .black
  | blackText : ColorWord (.str c!"black") .black

/-! ### Proofs -/

theorem core_trim (s : Str) : Core s (trim s) := by
  obtain ⟨x, h1, h2, h3⟩ := trimStart_spec s
  obtain ⟨y, h4, h5, h6⟩ := trimEnd_spec (trimStart s)
  refine ⟨x, y, ?_, h2, h5, ?_, h6⟩
  · rw [trim, List.append_assoc, ← h4, ← h1]
  · intro c hc
    refine h3 c ?_
    rw [h4]
    rw [trim] at hc
    rw [List.head?_append, hc]
    rfl

theorem trimStart_blank {x t : Str} (hx : Blank x) (ht : ∀ c, t.head? = some c → ¬ Space c) : trimStart (x ++ t) = t := by
  induction x with
  | nil =>
    cases t with
    | nil => rfl
    | cons c t =>
      have := isWhitespace_false.mpr (ht c rfl)
      simp [trimStart, this]
  | cons c x ih =>
    have := isWhitespace_iff.mpr (hx c (List.mem_cons_self ..))
    simp only [trimStart, List.cons_append, List.dropWhile_cons, this, if_true]
    exact ih fun d hd => hx d (List.mem_cons_of_mem _ hd)

theorem core_eq {s t : Str} (h : Core s t) : t = trim s := by
  obtain ⟨x, y, rfl, hx, hy, h1, h2⟩ := h
  by_cases h0 : t = []
  · subst h0
    have e : trimStart (x ++ [] ++ y) = [] := by
      have := trimStart_blank (x := x ++ [] ++ y) (t := []) (by
        intro c hc
        simp only [List.append_nil, List.mem_append] at hc
        exact hc.elim (hx c) (hy c)) (by simp)
      simpa using this
    rw [trim, e]
    rfl
  · have e : trimStart (x ++ t ++ y) = t ++ y := by
      rw [List.append_assoc]
      refine trimStart_blank hx fun c hc => h1 c ?_
      cases t with
      | nil => exact absurd rfl h0
      | cons => exact hc
    have e2 := trimStart_blank (x := y.reverse) (t := t.reverse) (fun c hc => hy c (List.mem_reverse.1 hc))
      (fun c hc => h2 c (by rwa [List.head?_reverse] at hc))
    rw [trim, e, trimEnd, List.reverse_append]
    rw [trimStart] at e2
    rw [e2, List.reverse_reverse]

theorem blank_core {s : Str} : Blank s ↔ Core s [] := by
  constructor
  · exact fun h => ⟨s, [], by simp, h, by simp [Blank], by simp, by simp⟩
  · rintro ⟨x, y, rfl, hx, hy, -⟩ c hc
    simp only [List.append_nil, List.mem_append] at hc
    exact hc.elim (hx c) (hy c)

section

variable {H : Host W} {E : Engine B Mv} {me : Color} {typed : W → List Str} {said : W → Said} {b : B} {env env' : Env}
  {w w' : W}

/-- what a round gives -/
def roundOutcome : Except GameEnd B → Outcome (Except Bool B)
  | .ok b => .ok (.ok b)
  | .error (.over won) => .ok (.error won)
  | .error .left => .exit 0

theorem print_line (h : Player H typed said) (s : Str) (env : Env) (w : W) :
    ∃ w', printLine H s env w = (.ok (), env, w') ∧ typed w' = typed w ∧ said w' = said w ++ [(true, s)] := by
  obtain ⟨w', h1, h2⟩ := h.print s w
  refine ⟨w', ?_, h2⟩
  simp only [printLine, bind, M.bind, M.io, h1]
  rfl

theorem eprint_line (h : Player H typed said) (s : Str) (env : Env) (w : W) :
    ∃ w', eprintLine H s env w = (.ok (), env, w') ∧ typed w' = typed w ∧ said w' = said w ++ [(false, s)] := by
  obtain ⟨w', h1, h2⟩ := h.eprint s w
  refine ⟨w', ?_, h2⟩
  simp only [eprintLine, bind, M.bind, M.io, h1]
  rfl

theorem comes_total (m : Mv) : ∃ r o, Comes E me b m r o := by
  cases h : E.play b m with
  | continuing b' => exact ⟨_, _, .goes h⟩
  | victory w => exact ⟨_, _, .mate h⟩
  | illegal => exact ⟨_, _, .refused h⟩
  | stalemate => exact ⟨_, _, .draw h⟩

theorem round_total (ls : List Str) : ∃ ls' r o, Round E me b ls ls' r o := by
  by_cases ht : E.turn b = me
  · cases ls with
    | nil => exact ⟨_, _, _, .leaves ht⟩
    | cons s ls =>
      by_cases h0 : trim s = []
      · exact ⟨_, _, _, .nothing ht (blank_core.2 (h0 ▸ core_trim s))⟩
      · by_cases hq : trim s ∈ quitWords
        · exact ⟨_, _, _, .quits ht (core_trim s) hq⟩
        · cases hp : E.parse (trim s) with
          | ok m =>
            obtain ⟨r, o, hc⟩ := comes_total (E := E) (me := me) (b := b) m
            exact ⟨_, _, _, .move ht (core_trim s) h0 hq hp hc⟩
          | error e => exact ⟨_, _, _, .noMove ht (core_trim s) h0 hq hp⟩
  · obtain ⟨r, o, hc⟩ := comes_total (E := E) (me := me) (b := b) (E.best b)
    exact ⟨_, _, _, .machine ht hc⟩

theorem played_comes (h : Player H typed said) {m : Mv} {r : Except GameEnd B} {o : Said} (hc : Comes E me b m r o) (env : Env)
    (w : W) : ∃ w', played H E me b m env w = (roundOutcome r, env, w') ∧ typed w' = typed w ∧ said w' = said w ++ o := by
  cases hc with
  | goes hp =>
    refine ⟨w, ?_, rfl, by simp⟩
    simp only [played, hp]
    rfl
  | refused hp =>
    obtain ⟨w1, h1, h2, h3⟩ := eprint_line h (E.move m ++ c!" is an illegal move.") env w
    refine ⟨w1, ?_, h2, h3⟩
    simp only [played, hp]
    rw [M.bind_ok h1]
    rfl
  | @mate c hp =>
    obtain ⟨w1, h1, h2, h3⟩ := print_line h (E.board b) env w
    obtain ⟨w2, h4, h5, h6⟩ := print_line h (c!"Checkmate! " ++ E.color c.other ++ c!" loses. " ++
        E.color c ++ c!" is victorious!") env w1
    refine ⟨w2, ?_, h5.trans h2, ?_⟩
    · simp only [played, hp]
      rw [M.bind_ok h1, M.bind_ok h4]
      simp only [roundOutcome, eq_comm (a := me)]
      rfl
    · rw [h6, h3]
      cases c <;> simp [Color.other]
  | draw hp =>
    obtain ⟨w1, h1, h2, h3⟩ := print_line h c!"Drawn game." env w
    refine ⟨w1, ?_, h2, h3⟩
    simp only [played, hp]
    rw [M.bind_ok h1]
    rfl

theorem read_line (h : Player H typed said) {s : Str} {ls : List Str} (env : Env) (hw : typed w = s :: ls) :
    ∃ w', readLine H env w = (.ok s, env, w') ∧ typed w' = ls ∧ said w' = said w := by
  obtain ⟨w', h1, h2⟩ := h.line c!"Enter move: " s ls w hw
  refine ⟨w', ?_, h2⟩
  simp only [readLine, bind, M.bind, M.io, h1]
  rfl

theorem round_runs (h : Player H typed said) {ls : List Str} {r : Except GameEnd B} {o : Said}
    (hr : Round E me b (typed w) ls r o) (env : Env) :
    ∃ w', Chess.round H E me b env w = (roundOutcome r, env, w') ∧ typed w' = ls ∧ said w' = said w ++ o := by
  generalize hl : typed w = l at hr
  cases hr with
  | machine ht hc =>
    obtain ⟨w1, h1, h2, h3⟩ := print_line h c!"Waiting for CPU to annihilate your position..." env w
    obtain ⟨w2, h4, h5, h6⟩ := played_comes h hc env w1
    refine ⟨w2, ?_, by rw [h5, h2, hl], by rw [h6, h3]; simp⟩
    rw [Chess.round, if_pos (Ne.symm ht), M.bind_ok h1, h4]
  | @move s t m _ _ o ht hs h0 hq hp hc =>
    obtain ⟨w1, h1, h2, h3⟩ := print_line h (c!"Your move!\n" ++ E.board b) env w
    obtain ⟨w2, h4, h5, h6⟩ := read_line h env (h2.trans hl)
    obtain ⟨w3, h7, h8, h9⟩ := played_comes h hc env w2
    refine ⟨w3, ?_, by rw [h8, h5], by rw [h9, h6, h3]; simp⟩
    have hq' : ¬ (t = c!"q" ∨ t = c!"quit" ∨ t = c!"exit") := by simpa [quitWords] using hq
    rw [Chess.round, if_neg (by simp [ht]), M.bind_ok h1, M.bind_ok h4]
    simp only [← core_eq hs, if_neg h0, if_neg hq', hp, h7]
  | @noMove s t e _ ht hs h0 hq hp =>
    obtain ⟨w1, h1, h2, h3⟩ := print_line h (c!"Your move!\n" ++ E.board b) env w
    obtain ⟨w2, h4, h5, h6⟩ := read_line h env (h2.trans hl)
    obtain ⟨w3, h7, h8, h9⟩ := eprint_line h e env w2
    refine ⟨w3, ?_, by rw [h8, h5], by rw [h9, h6, h3]; simp⟩
    have hq' : ¬ (t = c!"q" ∨ t = c!"quit" ∨ t = c!"exit") := by simpa [quitWords] using hq
    rw [Chess.round, if_neg (by simp [ht]), M.bind_ok h1, M.bind_ok h4]
    simp only [← core_eq hs, if_neg h0, if_neg hq', hp]
    rw [M.bind_ok h7]
    rfl
  | @nothing s _ ht hs =>
    obtain ⟨w1, h1, h2, h3⟩ := print_line h (c!"Your move!\n" ++ E.board b) env w
    obtain ⟨w2, h4, h5, h6⟩ := read_line h env (h2.trans hl)
    obtain ⟨w3, h7, h8, h9⟩ := eprint_line h c!"That's not a move!" env w2
    refine ⟨w3, ?_, by rw [h8, h5], by rw [h9, h6, h3]; simp⟩
    rw [Chess.round, if_neg (by simp [ht]), M.bind_ok h1, M.bind_ok h4]
    simp only [← core_eq (blank_core.1 hs), if_true]
    rw [M.bind_ok h7]
    rfl
  | @quits s t _ ht hs hq =>
    obtain ⟨w1, h1, h2, h3⟩ := print_line h (c!"Your move!\n" ++ E.board b) env w
    obtain ⟨w2, h4, h5, h6⟩ := read_line h env (h2.trans hl)
    obtain ⟨w3, h7, h8, h9⟩ := print_line h c!"Bye!" env w2
    refine ⟨w3, ?_, by rw [h8, h5], by rw [h9, h6, h3]; simp⟩
    have hq' : t = c!"q" ∨ t = c!"quit" ∨ t = c!"exit" := by simpa [quitWords] using hq
    have h0 : t ≠ [] := by rcases hq' with rfl | rfl | rfl <;> simp
    rw [Chess.round, if_neg (by simp [ht]), M.bind_ok h1, M.bind_ok h4]
    simp only [← core_eq hs, if_neg h0, if_pos hq']
    rw [M.bind_ok h7]
    rfl
  | leaves ht =>
    obtain ⟨w1, h1, h2, h3⟩ := print_line h (c!"Your move!\n" ++ E.board b) env w
    obtain ⟨w2, h4, h5, h6⟩ := h.eof c!"Enter move: " w1 (h2.trans hl)
    refine ⟨w2, ?_, h5, by rw [h6, h3]⟩
    rw [Chess.round, if_neg (by simp [ht]), M.bind_ok h1]
    simp only [readLine, bind, M.bind, M.io, h4]
    rfl

/-- what the loop gives -/
def loopOutcome : GameEnd → Outcome Bool
  | .over won => .ok won
  | .left => .exit 0

theorem loop_sound (h : Player H typed said) : ∀ (n : Nat) (b : B) (w : W),
    (∃ w', loop H E me n b env w = (.noFuel, env, w')) ∨ ∃ e o w', Course E me b (typed w) (typed w') e o ∧
      loop H E me n b env w = (loopOutcome e, env, w') ∧ said w' = said w ++ o
  | 0, b, w => .inl ⟨w, rfl⟩
  | n + 1, b, w => by
    obtain ⟨ls, r, o, hr⟩ := round_total (E := E) (me := me) (b := b) (typed w)
    obtain ⟨w1, h1, h2, h3⟩ := round_runs h hr env
    rcases r with e | b'
    · refine .inr ⟨e, o, w1, ?_, ?_, h3⟩
      · rw [h2]
        exact .last hr
      · cases e with
        | over won => rw [loop, M.bind_ok h1]; rfl
        | left => simp only [loop, bind, M.bind, h1, roundOutcome, loopOutcome]
    · rcases loop_sound h n b' w1 with ⟨w2, h4⟩ | ⟨e, o', w2, h4, h5, h6⟩
      · exact .inl ⟨w2, by rw [loop, M.bind_ok h1]; exact h4⟩
      · refine .inr ⟨e, o ++ o', w2, .more hr (h2 ▸ h4), by rw [loop, M.bind_ok h1]; exact h5, ?_⟩
        rw [h6, h3, List.append_assoc]

theorem loop_complete (h : Player H typed said) {ls rest : List Str} {e : GameEnd} {o : Said}
    (hc : Course E me b ls rest e o) : ∃ n0, ∀ n, n0 ≤ n → ∀ w, typed w = ls →
      ∃ w', loop H E me n b env w = (loopOutcome e, env, w') ∧ typed w' = rest ∧ said w' = said w ++ o := by
  induction hc with
  | @last b ls rest e o hr =>
    refine ⟨1, fun n hn w hw => ?_⟩
    obtain ⟨n, rfl⟩ : ∃ j, n = j + 1 := ⟨n - 1, by omega⟩
    obtain ⟨w1, h1, h2, h3⟩ := round_runs h (hw ▸ hr) env
    refine ⟨w1, ?_, h2, h3⟩
    cases e with
    | over won => rw [loop, M.bind_ok h1]; rfl
    | left => simp only [loop, bind, M.bind, h1, roundOutcome, loopOutcome]
  | @more b b' ls ls' rest e o o' hr _ ih =>
    obtain ⟨n0, ih⟩ := ih
    refine ⟨n0 + 1, fun n hn w hw => ?_⟩
    obtain ⟨n, rfl⟩ : ∃ j, n = j + 1 := ⟨n - 1, by omega⟩
    obtain ⟨w1, h1, h2, h3⟩ := round_runs h (hw ▸ hr) env
    obtain ⟨w2, h4, h5, h6⟩ := ih n (by omega) w1 h2
    refine ⟨w2, by rw [loop, M.bind_ok h1]; exact h4, h5, ?_⟩
    rw [h6, h3, List.append_assoc]

theorem chess_start {a : Expr} {args : List Expr} {n : Nat} (ha : ColorWord a me) : chessFn H E n (a :: args) env w =
    (do let won ← loop H E me n E.start; pure (.bool won) : M W Expr) env w := by
  cases ha <;> rfl

theorem end_outcome (e : GameEnd) {m : M W Bool} (h : m env w = (loopOutcome e, env, w')) :
    (do let won ← m; pure (.bool won) : M W Expr) env w = (e.outcome, env, w') := by
  cases e with
  | over won => rw [M.bind_ok h]; rfl
  | left => simp only [bind, M.bind, h]; rfl

/-- C120.  A game of `chess` that ends has followed the rules of the loop: the machine makes its best move when it is its
turn; a line of the player is a move, or is refused without a change of the board, or ends the game. -/
theorem C120_follows (h : Player H typed said) {a : Expr} {args : List Expr} {n : Nat} (ha : ColorWord a me) :
    (∃ w', chessFn H E n (a :: args) env w = (.noFuel, env, w')) ∨
      ∃ e o w', Course E me E.start (typed w) (typed w') e o ∧
        chessFn H E n (a :: args) env w = (e.outcome, env, w') ∧ said w' = said w ++ o := by
  rw [chess_start ha]
  rcases loop_sound (env := env) (E := E) (me := me) h n E.start w with ⟨w', h1⟩ | ⟨e, o, w', h1, h2, h3⟩
  · exact .inl ⟨w', by simp only [bind, M.bind, h1]⟩
  · exact .inr ⟨e, o, w', h1, end_outcome e h2, h3⟩

/-- C120.  And every such course is the course of a game. -/
theorem C120_plays (h : Player H typed said) {a : Expr} {args : List Expr} (ha : ColorWord a me) {rest : List Str}
    {e : GameEnd} {o : Said} (hc : Course E me E.start (typed w) rest e o) :
    ∃ n0, ∀ n, n0 ≤ n → ∃ w', chessFn H E n (a :: args) env w = (e.outcome, env, w') ∧ typed w' = rest ∧
      said w' = said w ++ o := by
  obtain ⟨n0, h1⟩ := loop_complete (env := env) h hc
  refine ⟨n0, fun n hn => ?_⟩
  obtain ⟨w', h2, h3⟩ := h1 n hn w rfl
  rw [chess_start ha]
  exact ⟨w', end_outcome e h2, h3⟩

theorem round_rest {ls rest : List Str} {r : Except GameEnd B} {o : Said} (h : Round E me b ls rest r o) :
    rest <:+ ls := by
  cases h <;> simp

theorem Wins.mono {l l' : List Str} {ms : List Mv} (hl : l ⊆ l') (h : Wins E me l b ms) : Wins E me l' b ms := by
  induction h with
  | last h1 h2 h3 => exact .last h1 (fun ht => let ⟨s, hs, h⟩ := h2 ht; ⟨s, hl hs, h⟩) h3
  | cons h1 h2 h3 _ ih => exact .cons h1 (fun ht => let ⟨s, hs, h⟩ := h2 ht; ⟨s, hl hs, h⟩) h3 ih

theorem course_wins {ls rest : List Str} {e : GameEnd} {o : Said} (h : Course E me b ls rest e o) (he : e = .over true) :
    ∃ ms, Wins E me ls b ms := by
  induction h with
  | @last b ls rest e o hr =>
    subst he
    cases hr with
    | machine ht hc =>
      generalize hx : GameEnd.over true = x at hc
      cases hc with
      | @mate w hp =>
        simp only [GameEnd.over.injEq] at hx
        obtain rfl := of_decide_eq_true hx.symm
        exact ⟨_, .last hp (fun h => absurd h ht) fun _ => rfl⟩
      | draw => simp at hx
    | @move s t m _ _ _ ht hs _ _ hp hc =>
      generalize hx : GameEnd.over true = x at hc
      cases hc with
      | @mate w hp' =>
        simp only [GameEnd.over.injEq] at hx
        obtain rfl := of_decide_eq_true hx.symm
        exact ⟨_, .last hp' (fun _ => ⟨s, by simp, t, hs, hp⟩) fun h => absurd ht h⟩
      | draw => simp at hx
  | @more b b' ls ls' rest e o o' hr _ ih =>
    obtain ⟨ms, ih⟩ := ih he
    have ih := ih.mono (round_rest hr).subset
    cases hr with
    | machine ht hc =>
      cases hc with
      | goes hp => exact ⟨_, .cons hp (fun h => absurd h ht) (fun _ => rfl) ih⟩
      | refused => exact ⟨_, ih⟩
    | @move s t m _ _ _ ht hs _ _ hp hc =>
      cases hc with
      | goes hp' => exact ⟨_, .cons hp' (fun _ => ⟨s, by simp, t, hs, hp⟩) (fun h => absurd ht h) ih⟩
      | refused => exact ⟨_, ih⟩
    | noMove => exact ⟨_, ih⟩
    | nothing => exact ⟨_, ih⟩

/-- C120.  If the value of `chess` is True, then legal moves lead from the first board to the victory of the player, those
of the player were typed, and those of the other side are the machine's best. -/
theorem C120_won (h : Player H typed said) {a : Expr} {args : List Expr} {n : Nat} (ha : ColorWord a me)
    (hv : (chessFn H E n (a :: args) env w).1 = .ok (.bool true)) : ∃ ms, Wins E me (typed w) E.start ms := by
  rcases C120_follows (E := E) (env := env) (w := w) (args := args) (n := n) h ha with ⟨w', h1⟩ | ⟨e, o, w', h1, h2, -⟩
  · rw [h1] at hv
    simp at hv
  · rw [h2] at hv
    refine course_wins h1 ?_
    cases e with
    | over won => simpa [GameEnd.outcome] using hv
    | left => simp [GameEnd.outcome] at hv

/-- C120.  Without the word for a color there is no game: an error, and nothing else happens.  The argument is not
evaluated: a variable with a color in it is no color. -/
theorem C120_color {a : Expr} {args : List Expr} {n : Nat} (ha : ∀ c, ¬ ColorWord a c) :
    chessFn H E n (a :: args) env w =
      (.err (.customError c!"call chess with a color, like \"black\" or \"white\""), env, w) := by
  cases a <;> try rfl
  all_goals
    rename_i s
    have h1 : s ≠ c!"white" := by rintro rfl; exact ha .white (by constructor)
    have h2 : s ≠ c!"black" := by rintro rfl; exact ha .black (by constructor)
    simp only [chessFn, if_neg h1, if_neg h2]
    rfl

/-- C120.  If the engine's best move is not legal, the game goes on forever without asking the player. -/
theorem C120_stuck (h : Player H typed said) {a : Expr} {args : List Expr} (ha : ColorWord a me) (ht : E.turn E.start ≠ me)
    (hp : E.play E.start (E.best E.start) = .illegal) (n : Nat) :
    ∃ w', chessFn H E n (a :: args) env w = (.noFuel, env, w') ∧ typed w' = typed w := by
  have key : ∀ n (w : W), ∃ w', loop H E me n E.start env w = (.noFuel, env, w') ∧ typed w' = typed w := by
    intro n
    induction n with
    | zero => exact fun w => ⟨w, rfl, rfl⟩
    | succ n ih =>
      intro w
      obtain ⟨w1, h1, h2, -⟩ := round_runs h (w := w) (Round.machine (E := E) (ls := typed w) ht (.refused hp)) env
      obtain ⟨w2, h3, h4⟩ := ih w1
      exact ⟨w2, by rw [loop, M.bind_ok h1]; exact h3, h4.trans h2⟩
  obtain ⟨w', h1, h2⟩ := key n w
  rw [chess_start ha]
  exact ⟨w', by simp only [bind, M.bind, h1], h2⟩

end

/-! ### Examples -/

/-- A game with three boards: White takes, Black answers, White wins. -/
def toy : Engine Nat Str where
  start := 0
  turn b := if b = 1 then .black else .white
  best _ := c!"a"
  play b m := if b = 0 then (if m = c!"x" then .continuing 1 else .illegal) else if b = 1 then .continuing 2
    else if m = c!"x" then .victory .white else .stalemate
  parse t := if t.length = 1 then .ok t else .error c!"no move"
  board b := List.replicate b '.'
  move m := m
  color
    | .white => c!"White"
    | .black => c!"Black"

/-- A world with the lines to come and what was said. -/
def toyHost : Host (List Str × Said) where
  io op w := match op with
    | .print s => (.unit, (w.1, w.2 ++ [(true, s.dropLast)]))
    | .eprint s => (.unit, (w.1, w.2 ++ [(false, s.dropLast)]))
    | .editLine _ => match w.1 with
      | [] => (.unit, w)
      | s :: ls => (.str s, (ls, w.2))
    | _ => (.unit, w)

theorem toy_player : Player toyHost Prod.fst Prod.snd where
  print s w := ⟨(w.1, w.2 ++ [(true, s)]), by simp [toyHost], rfl, rfl⟩
  eprint s w := ⟨(w.1, w.2 ++ [(false, s)]), by simp [toyHost], rfl, rfl⟩
  line p s ls w h := ⟨(ls, w.2), by simp [toyHost, h], rfl, rfl⟩
  eof p w h := ⟨w, by simp [toyHost, h], h, rfl⟩

/-- The player tries an illegal move, Enter, a text that is no move, and wins. -/
example : (chessFn toyHost toy 9 [.symbol c!"white"] ⟨[], []⟩ ([c!"y", c!"", c!"e2e4", c!" x ", c!"x"], [])).1 =
    .ok (.bool true) := by rfl

example : ∃ ms, Wins toy .white [c!"y", c!"", c!"e2e4", c!" x ", c!"x"] toy.start ms :=
  C120_won (n := 9) (env := ⟨[], []⟩) (w := ([c!"y", c!"", c!"e2e4", c!" x ", c!"x"], [])) (args := []) toy_player .whiteName rfl

/-- Quitting in the second round. -/
example : ∃ rest o, Course toy .white toy.start [c!"y", c!"quit"] rest (.over false) o :=
  ⟨_, _, .more (.move (t := c!"y") rfl (core_trim _) (by decide) (by decide) rfl (.refused rfl))
    (.last (.quits (t := c!"quit") rfl (core_trim _) (by decide)))⟩

/-- `black`, against an engine whose first move is not legal. -/
example (n : Nat) : ∃ w', chessFn toyHost toy n [.str c!"black"] ⟨[], []⟩ ([c!"quit"], []) = (.noFuel, ⟨[], []⟩, w') ∧
    w'.1 = [c!"quit"] := C120_stuck toy_player .blackText (by decide) rfl n

/-- a variable -/
example : (chessFn toyHost toy 9 [.symbol c!"c"] ⟨[(c!"c", .str c!"white")], []⟩ ([], [])).1 =
    .err (.customError c!"call chess with a color, like \"black\" or \"white\"") := by
  rw [C120_color (by rintro c h; cases h)]

end Dune.Props
