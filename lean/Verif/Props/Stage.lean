import Verif.Spec.Stage

/-! C105: when a program in a pipeline can be waited for. -/

namespace Dune.Props

open Dune.Stage Spec

namespace Stage

variable {Q : Type} {act : Q → Act Q} {cap : Nat} {last : Bool} {o r : List UInt8}

/-- The program still has `m` actions to go, to read `i` and to write `o'`. -/
def ToGo (act : Q → Act Q) (r : List UInt8) (m : Nat) (o' : List UInt8) : Option Q → List UInt8 → Prop
  | some q, i => Replies act m q i o' r
  | none, i => i = r ∧ o' = [] ∧ m = 0

/-- What holds at all times. -/
def Good (act : Q → Act Q) (last : Bool) (o r : List UInt8) (m : Nat) (o' : List UInt8) (c : Conf Q) : Prop :=
  match c.shell with
  | .writing w => c.closed = false ∧ o = c.out ++ o' ∧ ToGo act r m o' c.prog (c.inp ++ w)
  | .collecting g => c.closed = true ∧ last = false ∧ o = g ++ c.out ++ o' ∧ ToGo act r m o' c.prog c.inp
  | .waiting => c.closed = true ∧ last = true ∧ o = c.out ++ o' ∧ ToGo act r m o' c.prog c.inp
  | .done g => c.prog = none ∧ (last = true → g = [] ∧ c.out = o) ∧ (last = false → g = o)
  | .failed => c.prog = none ∧ r ≠ []

/-- An upper bound of the steps to come. -/
def toCome (m : Nat) (o' : List UInt8) (c : Conf Q) : Nat :=
  match c.shell with
  | .writing w => w.length + 2 + m + c.out.length + o'.length
  | .collecting _ => 1 + m + c.out.length + o'.length
  | .waiting => 1 + m + c.out.length + o'.length
  | .done _ => 0
  | .failed => 0

theorem answers_write {m : Nat} {q q' : Q} {b : UInt8} {i o' : List UInt8} (h : Replies act m q i o' r)
    (ha : act q = .write b q') : ∃ m' o'', m = m' + 1 ∧ o' = b :: o'' ∧ Replies act m' q' i o'' r := by
  cases h with
  | exit h => simp [h] at ha
  | read h _ => simp [h] at ha
  | readEnd h _ => simp [h] at ha
  | write h h' => rw [h] at ha; cases ha; exact ⟨_, _, rfl, rfl, h'⟩

theorem answers_end {m : Nat} {q : Q} {k : Option UInt8 → Q} {o' : List UInt8} (h : Replies act m q [] o' r)
    (ha : act q = .read k) : ∃ m', m = m' + 1 ∧ Replies act m' (k none) [] o' r := by
  cases h with
  | exit h => simp [h] at ha
  | readEnd h h' => rw [h] at ha; cases ha; exact ⟨_, rfl, h'⟩
  | write h h' => simp [h] at ha

theorem answers_exit {m : Nat} {q : Q} {i o' : List UInt8} (h : Replies act m q i o' r)
    (ha : act q = .exit) : i = r ∧ o' = [] ∧ m = 1 := by
  cases h with
  | exit h => exact ⟨rfl, rfl, rfl⟩
  | read h _ => simp [h] at ha
  | readEnd h _ => simp [h] at ha
  | write h h' => simp [h] at ha

theorem good_step {c d : Conf Q} {m : Nat} {o' : List UInt8} (hg : Good act last o r m o' c)
    (hs : Step cap last act c d) : ∃ m' o'', Good act last o r m' o'' d ∧ toCome m' o'' d < toCome m o' c := by
  cases hs with
  | put _ =>
    obtain ⟨h1, h2, h3⟩ := hg
    exact ⟨m, o', ⟨rfl, h2, by simpa [ToGo] using h3⟩, by simp [toCome]⟩
  | broken =>
    obtain ⟨h1, h2, h3⟩ := hg
    refine ⟨m, o', ⟨rfl, ?_⟩, by simp [toCome]; omega⟩
    rw [← h3.1]; simp
  | close =>
    obtain ⟨h1, h2, h3⟩ := hg
    simp only [List.append_nil] at h3
    cases last
    · exact ⟨m, o', ⟨rfl, rfl, by simpa using h2, h3⟩, by simp [toCome]⟩
    · exact ⟨m, o', ⟨rfl, rfl, h2, h3⟩, by simp [toCome]⟩
  | collect =>
    obtain ⟨h1, h2, h3, h4⟩ := hg
    exact ⟨m, o', ⟨h1, h2, by simpa using h3, h4⟩, by simp [toCome]⟩
  | collected =>
    obtain ⟨h1, h2, h3, h4⟩ := hg
    refine ⟨m, o', ⟨rfl, by simp [h2], fun _ => ?_⟩, by simp [toCome]; omega⟩
    rw [h3, h4.2.1]; simp
  | waited =>
    obtain ⟨h1, h2, h3, h4⟩ := hg
    refine ⟨m, o', ⟨rfl, fun _ => ⟨rfl, ?_⟩, by simp [h2]⟩, by simp [toCome]; omega⟩
    show _ = o
    rw [h3, h4.2.1]; simp
  | @read s b i cl q k ou ha =>
    cases s with
    | failed => exact absurd hg.1 (by simp)
    | done g => exact absurd hg.1 (by simp)
    | writing w =>
      obtain ⟨h1, h2, h3⟩ := hg
      simp only [ToGo, List.cons_append] at h3
      cases h3 <;> simp_all
      rename_i m k' _ h
      exact ⟨m, o', ⟨rfl, rfl, h⟩, by simp [toCome]⟩
    | collecting g =>
      obtain ⟨h1, h2, h3, h4⟩ := hg
      simp only [ToGo] at h4
      cases h4 <;> simp_all
      rename_i m k' _ h
      exact ⟨m, o', ⟨rfl, rfl, by simp, h⟩, by simp [toCome]⟩
    | waiting =>
      obtain ⟨h1, h2, h3, h4⟩ := hg
      simp only [ToGo] at h4
      cases h4 <;> simp_all
      rename_i m k' _ h
      exact ⟨m, o', ⟨rfl, rfl, by simp, h⟩, by simp [toCome]⟩
  | @readEnd s q k ou ha =>
    cases s with
    | failed => exact absurd hg.1 (by simp)
    | done g => exact absurd hg.1 (by simp)
    | writing w => exact absurd hg.1 (by simp)
    | collecting g =>
      obtain ⟨h1, h2, h3, h4⟩ := hg
      obtain ⟨m, rfl, h⟩ := answers_end h4 ha
      exact ⟨m, o', ⟨h1, h2, h3, h⟩, by simp [toCome]⟩
    | waiting =>
      obtain ⟨h1, h2, h3, h4⟩ := hg
      obtain ⟨m, rfl, h⟩ := answers_end h4 ha
      exact ⟨m, o', ⟨h1, h2, h3, h⟩, by simp [toCome]⟩
  | @write s i cl q b q' ou ha hc =>
    cases s with
    | failed => exact absurd hg.1 (by simp)
    | done g => exact absurd hg.1 (by simp)
    | writing w =>
      obtain ⟨h1, h2, h3⟩ := hg
      obtain ⟨m, o', rfl, rfl, h⟩ := answers_write h3 ha
      exact ⟨m, o', ⟨h1, by simpa using h2, h⟩, by simp [toCome]; omega⟩
    | collecting g =>
      obtain ⟨h1, h2, h3, h4⟩ := hg
      obtain ⟨m, o', rfl, rfl, h⟩ := answers_write h4 ha
      exact ⟨m, o', ⟨h1, h2, by simpa using h3, h⟩, by simp [toCome]; omega⟩
    | waiting =>
      obtain ⟨h1, h2, h3, h4⟩ := hg
      obtain ⟨m, o', rfl, rfl, h⟩ := answers_write h4 ha
      exact ⟨m, o', ⟨h1, h2, by simpa using h3, h⟩, by simp [toCome]; omega⟩
  | @exit s i cl q ou ha =>
    cases s with
    | failed => exact absurd hg.1 (by simp)
    | done g => exact absurd hg.1 (by simp)
    | writing w =>
      obtain ⟨h1, h2, h3⟩ := hg
      obtain ⟨h, rfl, rfl⟩ := answers_exit h3 ha
      exact ⟨0, [], ⟨h1, h2, h, rfl, rfl⟩, by simp [toCome]⟩
    | collecting g =>
      obtain ⟨h1, h2, h3, h4⟩ := hg
      obtain ⟨h, rfl, rfl⟩ := answers_exit h4 ha
      exact ⟨0, [], ⟨h1, h2, h3, h, rfl, rfl⟩, by simp [toCome]⟩
    | waiting =>
      obtain ⟨h1, h2, h3, h4⟩ := hg
      obtain ⟨h, rfl, rfl⟩ := answers_exit h4 ha
      exact ⟨0, [], ⟨h1, h2, h3, h, rfl, rfl⟩, by simp [toCome]⟩

theorem good_steps {q : Q} {m n : Nat} {input : List UInt8} {c : Conf Q} (ha : Replies act m q input o r)
    (hs : Steps cap last act n (init q input) c) :
    ∃ m' o', Good act last o r m' o' c ∧ toCome m' o' c + n ≤ input.length + 2 + m + o.length := by
  generalize hi : init q input = s at hs
  induction hs with
  | zero => subst hi; exact ⟨m, o, ⟨rfl, rfl, ha⟩, by simp [toCome, init]⟩
  | succ _ h2 ih =>
    obtain ⟨m', o', hg, hl⟩ := ih hi
    obtain ⟨m'', o'', hg', hl'⟩ := good_step hg h2
    exact ⟨m'', o'', hg', by omega⟩

/-- Once its input is closed, a program is never left waiting. -/
theorem closed_goes {c : Conf Q} {m : Nat} {o' : List UInt8} (hc : 0 < cap) (hg : Good act last o r m o' c)
    (hn : ¬Ended c) (hw : ∀ w, c.shell ≠ .writing w) : ∃ d, Step cap last act c d := by
  obtain ⟨s, i, cl, p, ou⟩ := c
  have go : ∀ s q, cl = true → (last = true ∨ ou.length < cap) →
      ∃ d, Step cap last act ⟨s, i, cl, some q, ou⟩ d := by
    rintro s q rfl ho
    rcases ha : act q with k | ⟨b, q'⟩ | _
    · cases i with
      | nil => exact ⟨_, .readEnd ha⟩
      | cons b i => exact ⟨_, .read ha⟩
    · exact ⟨_, .write ha ho⟩
    · exact ⟨_, .exit ha⟩
  cases s with
  | writing w => exact absurd rfl (hw w)
  | failed => exact absurd (.inl rfl) hn
  | done g => exact absurd (.inr ⟨g, rfl⟩) hn
  | collecting g =>
    cases ou with
    | cons b ou => exact ⟨_, .collect⟩
    | nil =>
      cases p with
      | none => exact ⟨_, .collected⟩
      | some q => exact go _ q hg.1 (.inr hc)
  | waiting =>
    cases p with
    | none => exact ⟨_, .waited⟩
    | some q => exact go _ q hg.1 (.inl hg.2.1)

/-- What can hold up the shell while it writes: both pipes are full. -/
theorem writing_stuck {w i cl p ou} {m : Nat} {o' : List UInt8}
    (hg : Good act last o r m o' (⟨.writing w, i, cl, p, ou⟩ : Conf Q))
    (hs : Stuck cap last act ⟨.writing w, i, cl, p, ou⟩) :
    w ≠ [] ∧ cap ≤ i.length ∧ ∃ q, p = some q ∧
      ((i = [] ∧ ∃ k, act q = .read k) ∨ last = false ∧ cap ≤ ou.length ∧ ∃ b q', act q = .write b q') := by
  obtain ⟨h1, -, -⟩ := hg
  simp only at h1
  subst h1
  cases w with
  | nil => exact absurd .close (hs _)
  | cons b w =>
    cases p with
    | none => exact absurd .broken (hs _)
    | some q =>
      refine ⟨by simp, ?_, q, rfl, ?_⟩
      · exact Nat.le_of_not_lt fun h => hs _ (.put h)
      · rcases ha : act q with k | ⟨b, q'⟩ | _
        · cases i with
          | nil => exact .inl ⟨rfl, k, rfl⟩
          | cons b i => exact absurd (.read ha) (hs _)
        · refine .inr ⟨?_, ?_, b, q', rfl⟩
          · cases last
            · rfl
            · exact absurd (.write ha (.inl rfl)) (hs _)
          · exact Nat.le_of_not_lt fun h => hs _ (.write ha (.inr h))
        · exact absurd (.exit ha) (hs _)

/-- A standstill before the end has both pipes full. -/
theorem finishes {q : Q} {m n : Nat} {input : List UInt8} {c : Conf Q} (hc : 0 < cap)
    (ha : Replies act m q input o r) (hs : Steps cap last act n (init q input) c)
    (hw : ∀ w i q ou, c = ⟨.writing w, i, false, some q, ou⟩ → w ≠ [] → cap ≤ i.length → last = false →
      cap ≤ ou.length → ∀ b q', act q ≠ .write b q')
    (hst : Stuck cap last act c) : Ended c := by
  obtain ⟨m', o', hg, -⟩ := good_steps ha hs
  refine Classical.byContradiction fun hn => ?_
  by_cases hw' : ∃ w, c.shell = .writing w
  · obtain ⟨w, hw'⟩ := hw'
    obtain ⟨s, i, cl, p, ou⟩ := c
    simp only at hw'
    subst hw'
    obtain ⟨h1, h2, q', rfl, h | ⟨hl, ho, b, q'', h⟩⟩ := writing_stuck hg hst
    · rw [h.1] at h2; simp at h2; omega
    · have := hg.1
      simp only at this
      subst this
      exact hw w i q' ou rfl h1 h2 hl ho b q'' h
  · obtain ⟨d, hd⟩ := closed_goes hc hg hn (fun w h => hw' ⟨w, h⟩)
    exact hst d hd

/-- If no run is longer than `b`, then there is one to a standstill. -/
theorem standstill {s : Conf Q} {b : Nat} (hb : ∀ n c, Steps cap last act n s c → n ≤ b) :
    ∃ n c, Steps cap last act n s c ∧ Stuck cap last act c := by
  have : ∀ k n c, b ≤ n + k → Steps cap last act n s c → ∃ n c, Steps cap last act n s c ∧ Stuck cap last act c := by
    intro k
    induction k with
    | zero =>
      intro n c hk hs
      refine ⟨n, c, hs, fun d hd => ?_⟩
      have := hb _ _ (hs.succ hd)
      omega
    | succ k ih =>
      intro n c hk hs
      by_cases h : Stuck cap last act c
      · exact ⟨n, c, hs, h⟩
      · simp only [Stuck, Classical.not_forall, Classical.not_not] at h
        obtain ⟨d, hd⟩ := h
        exact ih (n + 1) d (by omega) (hs.succ hd)
  exact this b 0 s (by omega) .zero

/-- What `cat` would do with a buffer of one byte. -/
inductive Cat
  | ready
  | holding (b : UInt8)
  | over

def cat : Cat → Act Cat
  | .ready => .read fun
    | some b => .holding b
    | none => .over
  | .holding b => .write b .ready
  | .over => .exit

def Cat.held : Cat → Nat
  | .holding _ => 1
  | _ => 0

theorem cat_answers (input : List UInt8) : Replies cat (2 * input.length + 2) .ready input input [] := by
  induction input with
  | nil => exact .readEnd rfl (.exit rfl)
  | cons b i ih => exact .read rfl (.write rfl ih)

/-- While the shell writes, every byte is somewhere. -/
theorem cat_counts {n : Nat} {input : List UInt8} {c : Conf Cat}
    (hs : Steps cap false cat n (init .ready input) c) : ∀ w, c.shell = .writing w → c.closed = false ∧
      ∃ q, c.prog = some q ∧ q ≠ .over ∧ c.inp.length ≤ cap ∧ c.out.length ≤ cap ∧
        input.length = w.length + c.inp.length + q.held + c.out.length := by
  generalize hi : init Cat.ready input = s at hs
  induction hs with
  | zero => subst hi; rintro w h; cases h; exact ⟨rfl, .ready, rfl, by simp, by simp [init], by simp [init], by simp [init, Cat.held]⟩
  | succ _ h2 ih =>
    have ih := ih hi
    rintro w h
    cases h2 with
    | put _ =>
      cases h
      obtain ⟨h1, q, h3, h4, h5, h6, h7⟩ := ih _ rfl
      refine ⟨rfl, q, h3, h4, ?_, h6, ?_⟩ <;> simp at * <;> omega
    | broken => cases h
    | close => cases h
    | collect => cases h
    | collected => cases h
    | waited => cases h
    | @read s' b i' cl q k ou ha =>
      obtain ⟨h1, _, h3, h4, h5, h6, h7⟩ := ih _ h
      cases h3
      cases q <;> simp [cat] at ha
      subst ha
      refine ⟨h1, _, rfl, by simp, ?_, h6, ?_⟩ <;> simp [Cat.held] at * <;> omega
    | readEnd ha => exact absurd (ih _ h).1 (by simp)
    | @write s' i' cl q b q' ou ha ho =>
      obtain ⟨h1, _, h3, h4, h5, h6, h7⟩ := ih _ h
      cases h3
      cases q <;> simp [cat] at ha
      obtain ⟨rfl, rfl⟩ := ha
      refine ⟨h1, _, rfl, by simp, h5, ?_, ?_⟩ <;> simp [Cat.held] at * <;> omega
    | @exit s' i' cl q ou ha =>
      obtain ⟨h1, _, h3, h4, h5, h6, h7⟩ := ih _ h
      cases h3
      cases q <;> simp [cat] at ha
      exact absurd rfl h4

theorem cat_prompt : Prompt cat .ready 1 := by
  refine ⟨(· ≠ .over), Cat.held, by simp, ?_⟩
  rintro (_ | b | _) h
  · exact ⟨by simp [Cat.held], .inl ⟨_, rfl, fun b => ⟨by simp, rfl⟩⟩⟩
  · exact ⟨by simp [Cat.held], .inr ⟨b, .ready, rfl, by simp, by simp [Cat.held]⟩⟩
  · exact absurd rfl h

end Stage

open Stage

variable {Q : Type} {act : Q → Act Q} {cap : Nat} {last : Bool} {o r : List UInt8}

/-- However the shell and the program are scheduled, the shell goes on with just what the program writes
when it is given the whole input (what the last one writes goes to the terminal), and it reports an error
only if the program leaves some of its input unread. -/
theorem C105_output {q : Q} {m n : Nat} {input : List UInt8} {c : Conf Q} (ha : Replies act m q input o r)
    (hs : Steps cap last act n (init q input) c) :
    (∀ g, c.shell = .done g → if last then g = [] ∧ c.out = o else g = o) ∧ (c.shell = .failed → r ≠ []) := by
  obtain ⟨m', o', hg, -⟩ := good_steps ha hs
  obtain ⟨s, i, cl, p, ou⟩ := c
  constructor
  · rintro g h
    simp only at h; subst h
    cases last
    · exact hg.2.2 rfl
    · exact hg.2.1 rfl
  · intro h
    simp only at h; subst h
    exact hg.2

/-- If a program ends when given its whole input, then nothing goes on for ever: after a number of steps
that depends only on the program's, the shell is through or everybody waits. -/
theorem C105_bounded {q : Q} {m n : Nat} {input : List UInt8} {c : Conf Q} (ha : Replies act m q input o r)
    (hs : Steps cap last act n (init q input) c) : n ≤ input.length + m + o.length + 2 := by
  obtain ⟨m', o', -, h⟩ := good_steps ha hs
  omega

/-- The last program, a program whose input fits into a pipe, and one that writes nothing before the end
of its input, are never left waiting. -/
theorem C105_finishes {q : Q} {m n : Nat} {input : List UInt8} {c : Conf Q} (hc : 0 < cap)
    (ha : Replies act m q input o r) (hk : last = true ∨ input.length ≤ cap ∨ Patient act q)
    (hs : Steps cap last act n (init q input) c) (hst : Stuck cap last act c) : Ended c := by
  refine finishes hc ha hs ?_ hst
  rintro w i q' ou rfl hw hi hl ho b q'' h
  rcases hk with rfl | hk | ⟨S, hS, hk⟩
  · cases hl
  · have : ∀ {n c}, Steps cap last act n (init q input) c → c.inp.length + (match c.shell with | .writing w => w.length | _ => 0) ≤ input.length := by
      intro n c hs
      generalize hi : init q input = s at hs
      induction hs with
      | zero => subst hi; simp [init]
      | succ _ h2 ih =>
        have := ih hi
        cases h2 <;> simp_all <;> first | omega | (cases last <;> simp_all)
    have := this hs
    have : 0 < w.length := List.length_pos_iff.mpr hw
    simp at *
    omega
  · have : ∀ {n c}, Steps cap last act n (init q input) c → ∀ w, c.shell = .writing w →
        c.closed = false ∧ ∀ q, c.prog = some q → S q := by
      intro n c hs
      generalize hi : init q input = s at hs
      induction hs with
      | zero => subst hi; rintro w h; exact ⟨rfl, by rintro q h; cases h; exact hS⟩
      | succ _ h2 ih =>
        have := ih hi
        rintro w h
        cases h2 with
        | put _ => exact ⟨rfl, (this _ rfl).2⟩
        | broken => cases h
        | close => cases last <;> cases h
        | collect => cases h
        | collected => cases h
        | waited => cases h
        | read ha =>
          have h1 := this _ h
          refine ⟨h1.1, ?_⟩
          rintro q h
          cases h
          rcases hk _ (h1.2 _ rfl) with h | ⟨k, h, h'⟩
          · simp [h] at ha
          · rw [h] at ha; cases ha; exact h' _
        | readEnd ha => exact absurd (this _ h).1 (by simp)
        | write ha _ =>
          rcases hk _ ((this _ h).2 _ rfl) with h | ⟨k, h, h'⟩ <;> simp [h] at ha
        | exit ha => exact ⟨(this _ h).1, by rintro q h; cases h⟩
    rcases hk _ ((this hs _ rfl).2 _ rfl) with h' | ⟨k, h', _⟩ <;> simp [h] at h'

/-- But a program that is not the last, that reads for as long as there is input and holds back at most
`h` bytes, is left waiting for ever if its input is longer than two pipes and `h` bytes: no schedule gets
the shell past writing, and every schedule comes to a standstill. -/
theorem C105_hangs {q : Q} {h n : Nat} {input : List UInt8} {c : Conf Q} (hp : Prompt act q h)
    (hl : 2 * cap + h < input.length) (hs : Steps cap false act n (init q input) c) :
    ¬Ended c ∧ n ≤ 4 * cap + 2 * h := by
  obtain ⟨S, lag, hS, hk⟩ := hp
  have : ∃ w q', c.shell = .writing w ∧ c.closed = false ∧ c.prog = some q' ∧ S q' ∧
      c.inp.length ≤ cap ∧ c.out.length ≤ cap ∧ c.inp.length + w.length ≤ input.length ∧
      n + c.inp.length + 2 * w.length = 2 * input.length + c.out.length ∧
      input.length ≤ w.length + c.inp.length + c.out.length + lag q' := by
    generalize hi : init q input = s at hs
    induction hs with
    | zero => subst hi; exact ⟨_, q, rfl, rfl, rfl, hS, by simp [init], by simp [init], by simp [init], by simp [init], by simp [init]⟩
    | succ _ h2 ih =>
      obtain ⟨w, q', h3, h4, h5, h6, h7, h8, h9, h10, h11⟩ := ih hi
      cases h2 with
      | put hc =>
        cases h3
        refine ⟨_, q', rfl, rfl, h5, h6, ?_, h8, ?_, ?_, ?_⟩ <;> simp at * <;> omega
      | broken => cases h5
      | close =>
        cases h3
        have := (hk _ h6).1
        simp at *
        omega
      | collect => cases h3
      | collected => cases h3
      | waited => cases h3
      | read ha =>
        cases h5
        rcases (hk _ h6).2 with ⟨k', hk', hb⟩ | ⟨b, q'', hk', hb⟩ <;> rw [hk'] at ha <;> cases ha
        refine ⟨w, _, h3, h4, rfl, (hb _).1, ?_, h8, ?_, ?_, ?_⟩
        · simp at *; omega
        · simp at *; omega
        · simp at *; omega
        · have := (hb ‹_›).2
          simp at *; omega
      | readEnd ha => cases h4
      | write ha ho =>
        cases h5
        rcases (hk _ h6).2 with ⟨k', hk', hb⟩ | ⟨b, q'', hk', hb⟩ <;> rw [hk'] at ha <;> cases ha
        refine ⟨w, _, h3, h4, rfl, hb.1, h7, ?_, h9, ?_, ?_⟩
        · simp at *; omega
        · simp at *; omega
        · have := hb.2
          simp at *; omega
      | exit ha =>
        cases h5
        rcases (hk _ h6).2 with ⟨k', hk', hb⟩ | ⟨b, q'', hk', hb⟩ <;> rw [hk'] at ha <;> cases ha
  obtain ⟨w, q', h3, h4, h5, h6, h7, h8, h9, h10, h11⟩ := this
  refine ⟨?_, ?_⟩
  · rintro (h | ⟨g, h⟩) <;> rw [h3] at h <;> cases h
  · have := (hk _ h6).1
    omega

/-- Such a standstill is always reached. -/
theorem C105_standstill {q : Q} {h : Nat} {input : List UInt8} (hp : Prompt act q h)
    (hl : 2 * cap + h < input.length) :
    ∃ n c, Steps cap false act n (init q input) c ∧ Stuck cap false act c ∧ ¬Ended c := by
  obtain ⟨n, c, hs, hst⟩ := standstill (cap := cap) (last := false) (act := act) (s := init q input)
    (fun n c hs => (C105_hangs hp hl hs).2)
  exact ⟨n, c, hs, hst, (C105_hangs hp hl hs).1⟩

/-- The bound is sharp: in the middle of a pipeline, a program that copies its input byte by byte is waited
for with success on every schedule exactly if its input has at most `2 * cap + 1` bytes. -/
theorem C105_cat {input : List UInt8} (hc : 0 < cap) :
    (∀ n c, Steps cap false cat n (init .ready input) c → Stuck cap false cat c → c.shell = .done input) ↔
      input.length ≤ 2 * cap + 1 := by
  constructor
  · intro h
    refine Nat.le_of_not_lt fun hl => ?_
    obtain ⟨n, c, hs, hst, he⟩ := C105_standstill cat_prompt hl
    exact he (.inr ⟨_, h n c hs hst⟩)
  · intro hl n c hs hst
    have he : Ended c := by
      refine finishes hc (cat_answers input) hs ?_ hst
      rintro w i q ou rfl hw hi - ho b q' ha
      obtain ⟨-, _, h3, h4, h5, h6, h7⟩ := cat_counts hs _ rfl
      cases h3
      have : 0 < w.length := List.length_pos_iff.mpr hw
      cases q <;> simp [cat] at ha
      simp [Cat.held] at h7
      omega
    obtain ⟨h1, h2⟩ := C105_output (cat_answers input) hs
    rcases he with he | ⟨g, he⟩
    · exact absurd rfl (h2 he)
    · have := h1 g he
      simp at this
      rw [he, this]

/-- With the pipes of Linux: a copy of 131073 bytes gets through, one of 131074 never does. -/
example (input : List UInt8) : (∀ n c, Steps 65536 false cat n (init .ready input) c →
    Stuck 65536 false cat c → c.shell = .done input) ↔ input.length ≤ 131073 := C105_cat (by decide)

/-- A program like `wc -c`, modulo 256: it counts and answers at the end. -/
inductive Wc
  | counting (n : UInt8)
  | answer (n : UInt8)
  | over

def wc : Wc → Act Wc
  | .counting n => .read fun
    | some _ => .counting (n + 1)
    | none => .answer n
  | .answer n => .write n .over
  | .over => .exit

example : Patient wc (.counting 0) := by
  refine ⟨fun q => ∃ n, q = .counting n, ⟨0, rfl⟩, ?_⟩
  rintro _ ⟨n, rfl⟩
  exact .inr ⟨_, rfl, fun b => ⟨n + 1, rfl⟩⟩

example : Replies wc 5 (.counting 0) [7, 7] [2] [] :=
  .read rfl (.read rfl (.readEnd rfl (.write rfl (.exit rfl))))

/-- A program that reads nothing, as `true` does, makes the shell report an error, if it is quick. -/
example : ∃ n c, Steps 65536 false (fun _ : Unit => .exit) n (init () [1]) c ∧ c.shell = .failed :=
  ⟨2, _, .succ (.succ .zero (.exit rfl)) .broken, rfl⟩

/-! ### Instances: the hypotheses can be met -/

example := C105_bounded (cap := 65536) (last := false) (act := wc) (q := .counting 0) (m := 5) (input := [7, 7])
  (o := [2]) (r := []) (n := 0)
  (.read rfl (.read rfl (.readEnd rfl (.write rfl (.exit rfl))))) .zero

example := C105_hangs (n := 0) (cap := 65536) (input := List.replicate 131074 (7 : UInt8)) cat_prompt
  (by rw [List.length_replicate]; decide) .zero

example := C105_standstill (cap := 65536) (input := List.replicate 131074 (7 : UInt8)) cat_prompt
  (by rw [List.length_replicate]; decide)

end Dune.Props
