import Verif.Model.Plat

/-!
Comparison, equality, truthiness and the operator traits of `Expression`
(src/expr.rs:354-415, 680-809).
-/

namespace Dune

namespace Expr

mutual

/-- derived `PartialEq for Expression` (src/expr.rs:91), with `PartialEq for Builtin` by name
(src/expr.rs:156-160), IEEE equality for floats and the derived `PartialEq for Environment`
(src/env.rs:6) inside lambdas. -/
def beq : Expr → Expr → Bool
  | .group a, .group b => beq a b
  | .symbol a, .symbol b => decide (a = b)
  | .int a, .int b => decide (a = b)
  | .float a, .float b => F64.eq a b
  | .bytes a, .bytes b => decide (a = b)
  | .str a, .str b => decide (a = b)
  | .bool a, .bool b => decide (a = b)
  | .list a, .list b => beqList a b
  | .map a, .map b => beqMap a b
  | .none, .none => true
  | .assign n a, .assign m b => decide (n = m) && beq a b
  | .for_ n a b, .for_ m c d => decide (n = m) && beq a c && beq b d
  | .ite a b c, .ite d e f => beq a d && beq b e && beq c f
  | .apply f as, .apply g bs => beq f g && beqList as bs
  | .lambda p a b c, .lambda q d e f => decide (p = q) && beq a d && beqMap b e && beqMaps c f
  | .macro_ p a, .macro_ q b => decide (p = q) && beq a b
  | .do_ a, .do_ b => beqList a b
  | .builtin n _ _, .builtin m _ _ => decide (n = m)
  | .quote a, .quote b => beq a b
  | _, _ => false

/-- `Vec<Expression> == Vec<Expression>` -/
def beqList : List Expr → List Expr → Bool
  | [], [] => true
  | a :: as, b :: bs => beq a b && beqList as bs
  | _, _ => false

/-- `BTreeMap<String, Expression> == BTreeMap<String, Expression>` -/
def beqMap : List (Str × Expr) → List (Str × Expr) → Bool
  | [], [] => true
  | (k, a) :: as, (l, b) :: bs => decide (k = l) && beq a b && beqMap as bs
  | _, _ => false

/-- equality of the chains of parents -/
def beqMaps : List (List (Str × Expr)) → List (List (Str × Expr)) → Bool
  | [], [] => true
  | a :: as, b :: bs => beqMap a b && beqMaps as bs
  | _, _ => false

end

/-- `Vec<u8>::partial_cmp` -/
def cmpBytes : List UInt8 → List UInt8 → Ordering
  | [], [] => .eq
  | [], _ :: _ => .lt
  | _ :: _, [] => .gt
  | a :: as, b :: bs =>
    if a.toNat < b.toNat then .lt else if b.toNat < a.toNat then .gt else cmpBytes as bs

mutual

/-- `PartialOrd for Expression` (src/expr.rs:354-366). -/
def partialCmp : Expr → Expr → Option Ordering
  | .int a, .int b => some (compare a.val b.val)
  | .float a, .float b => F64.partialCmp a b
  | .str a, .str b => some (cmpStr a b)
  | .bytes a, .bytes b => some (cmpBytes a b)
  | .list a, .list b => partialCmpList a b
  | .map a, .map b => partialCmpMap a b
  | _, _ => Option.none

/-- `Vec<T>::partial_cmp`: lexicographic, then by length -/
def partialCmpList : List Expr → List Expr → Option Ordering
  | [], [] => some .eq
  | [], _ :: _ => some .lt
  | _ :: _, [] => some .gt
  | a :: as, b :: bs =>
    match partialCmp a b with
    | some .eq => partialCmpList as bs
    | r => r

/-- `BTreeMap::partial_cmp`: lexicographic on the (key, value) pairs -/
def partialCmpMap : List (Str × Expr) → List (Str × Expr) → Option Ordering
  | [], [] => some .eq
  | [], _ :: _ => some .lt
  | _ :: _, [] => some .gt
  | (k, a) :: as, (l, b) :: bs =>
    match cmpStr k l with
    | .eq =>
      match partialCmp a b with
      | some .eq => partialCmpMap as bs
      | r => r
    | r => some r

end

/-- `Expression::is_truthy` (src/expr.rs:389-403). -/
def isTruthy : Expr → Bool
  | .int i => decide (i.val ≠ 0)
  | .float f => !F64.eq f F64.zero
  | .str s => !s.isEmpty
  | .bytes b => !b.isEmpty
  | .bool b => b
  | .list l => !l.isEmpty
  | .map m => !m.isEmpty
  | .lambda .. => true
  | .macro_ .. => true
  | .builtin .. => true
  | _ => false

mutual

/-- `Expression::flatten` of a one-element vector (src/expr.rs:405-415). -/
def flattenOne : Expr → List Expr
  | .list l => flatten l
  | .group e => flattenOne e
  | e => [e]

/-- `Expression::flatten` (src/expr.rs:405-415). -/
def flatten : List Expr → List Expr
  | [] => []
  | e :: l => flattenOne e ++ flatten l

end

mutual

/-- `Expression::get_used_symbols` (src/expr.rs:417-470). -/
def usedSymbols : Expr → List Str
  | .symbol n => [n]
  | .none | .int _ | .float _ | .bytes _ | .str _ | .bool _ | .builtin .. => []
  | .for_ _ l body => usedSymbols l ++ usedSymbols body
  | .do_ l => usedSymbolsList l
  | .list l => usedSymbolsList l
  | .map m => usedSymbolsMap m
  | .group e => usedSymbols e
  | .quote e => usedSymbols e
  | .lambda _ body _ _ => usedSymbols body
  | .macro_ _ body => usedSymbols body
  | .assign _ e => usedSymbols e
  | .ite c t e => usedSymbols c ++ usedSymbols t ++ usedSymbols e
  | .apply g args => usedSymbols g ++ usedSymbolsList args

/-- the loop over list elements -/
def usedSymbolsList : List Expr → List Str
  | [] => []
  | e :: l => usedSymbols e ++ usedSymbolsList l

/-- the loop over map values -/
def usedSymbolsMap : List (Str × Expr) → List Str
  | [] => []
  | (_, e) :: l => usedSymbols e ++ usedSymbolsMap l

end

/-- `Option<i64>` of a checked operation to an expression: `None` becomes `Expression::None`. -/
def ofChecked : Option I64 → Expr
  | some i => .int i
  | Option.none => .none

/-- `i64::checked_div`: fails for a zero divisor and when the quotient does not fit. -/
def checkedDiv (m n : I64) : Option I64 :=
  if n.val = 0 then Option.none else I64.ofInt? (Int.tdiv m.val n.val)

/-- `impl Add` (src/expr.rs:680-703). -/
def add (P : Plat) : Expr → Expr → Expr
  | .int m, .int n => ofChecked (I64.ofInt? (m.val + n.val))
  | .int m, .float n => .float (P.fAdd (P.fOfInt m) n)
  | .float m, .int n => .float (P.fAdd m (P.fOfInt n))
  | .float m, .float n => .float (P.fAdd m n)
  | .str m, .str n => .str (m ++ n)
  | .bytes a, .bytes b => .bytes (a ++ b)
  | .list a, .list b => .list (a ++ b)
  | _, _ => .none

/-- `impl Sub` (src/expr.rs:705-724).  Map − String and List − Integer return the removed
value. -/
def sub (P : Plat) : Expr → Expr → Expr
  | .int m, .int n => ofChecked (I64.ofInt? (m.val - n.val))
  | .int m, .float n => .float (P.fSub (P.fOfInt m) n)
  | .float m, .int n => .float (P.fSub m (P.fOfInt n))
  | .float m, .float n => .float (P.fSub m n)
  | .map m, .str n => (BMap.get? m n).getD .none
  | .list m, .int n => m.getD n.asUsize .none
  | _, _ => .none

/-- `impl Neg` (src/expr.rs:726-736).  `-i64::MIN` panics with overflow checks and wraps without
them. -/
def neg (P : Plat) : Expr → Outcome Expr
  | .int n =>
    match I64.ofInt? (-n.val) with
    | some r => .ok (.int r)
    | Option.none => if P.overflowChecks then .panic else .ok (.int n)
  | .bool b => .ok (.bool (!b))
  | .float n => .ok (.float n.neg)
  | _ => .ok .none

/-- `n` copies of a list -/
def replicateList {α : Type} (l : List α) : Nat → List α
  | 0 => []
  | n + 1 => l ++ replicateList l n

/-- `str::repeat(n as usize)`: panics with "capacity overflow" when the result would be longer
than `isize::MAX` bytes.  Running out of memory below that bound is not modelled. -/
def repeatStr (s : Str) (n : I64) : Outcome Expr :=
  if utf8Len s * n.asUsize < 9223372036854775808 then
    if s = [] then .ok (.str []) else .ok (.str (replicateList s n.asUsize))
  else .panic

/-- `impl Mul` (src/expr.rs:738-762). -/
def mul (P : Plat) : Expr → Expr → Outcome Expr
  | .int m, .int n => .ok (ofChecked (I64.ofInt? (m.val * n.val)))
  | .int m, .float n => .ok (.float (P.fMul (P.fOfInt m) n))
  | .float m, .int n => .ok (.float (P.fMul m (P.fOfInt n)))
  | .float m, .float n => .ok (.float (P.fMul m n))
  | .str m, .int n => repeatStr m n
  | .int n, .str m => repeatStr m n
  | .list m, .int n => .ok (.list (replicateList m n.val.toNat))
  | .int n, .list m => .ok (.list (replicateList m n.val.toNat))
  | _, _ => .ok .none

/-- `impl Div` (src/expr.rs:764-778). -/
def div (P : Plat) : Expr → Expr → Expr
  | .int m, .int n => ofChecked (checkedDiv m n)
  | .int m, .float n => .float (P.fDiv (P.fOfInt m) n)
  | .float m, .int n => .float (P.fDiv m (P.fOfInt n))
  | .float m, .float n => .float (P.fDiv m n)
  | _, _ => .none

/-- `impl Rem` (src/expr.rs:780-788); `i64 % i64` panics for a zero divisor and for
`i64::MIN % -1`, in every build mode. -/
def rem : Expr → Expr → Outcome Expr
  | .int m, .int n =>
    if n.val = 0 then .panic
    else
      match I64.ofInt? (Int.tdiv m.val n.val) with
      | Option.none => .panic
      | some _ =>
        match I64.ofInt? (Int.tmod m.val n.val) with
        | some r => .ok (.int r)
        | Option.none => .panic
  | _, _ => .ok .none

/-- `impl Index` (src/expr.rs:790-809). -/
def index : Expr → Expr → Expr
  | .map m, .symbol n => (BMap.get? m n).getD .none
  | .map m, .str n => (BMap.get? m n).getD .none
  | .list l, .int n => l.getD n.asUsize .none
  | _, _ => .none

end Expr

end Dune
