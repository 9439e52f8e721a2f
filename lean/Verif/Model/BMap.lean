import Verif.Model.Str

/-!
`BTreeMap<String, _>` as an association list ordered by key.  The functions below keep a sorted
list sorted (proved in `Verif/Proof/BMap.lean`).
-/

namespace Dune

/-- `BTreeMap<String, α>` in iteration (= key) order. -/
abbrev BMap (α : Type) := List (Str × α)

namespace BMap

variable {α : Type}

/-- `BTreeMap::get`. -/
def get? : BMap α → Str → Option α
  | [], _ => none
  | (k, v) :: m, x => if k = x then some v else get? m x

/-- `BTreeMap::contains_key`. -/
def contains (m : BMap α) (x : Str) : Bool := (get? m x).isSome

/-- `BTreeMap::insert`. -/
def insert : BMap α → Str → α → BMap α
  | [], x, v => [(x, v)]
  | (k, w) :: m, x, v =>
    match cmpStr x k with
    | .lt => (x, v) :: (k, w) :: m
    | .eq => (x, v) :: m
    | .gt => (k, w) :: insert m x v

/-- `BTreeMap::remove`. -/
def remove (m : BMap α) (x : Str) : BMap α := m.filter fun p => decide (p.1 ≠ x)

/-- `collect::<BTreeMap<_, _>>()`, `extend`: insert the pairs from left to right. -/
def extend (m : BMap α) : List (Str × α) → BMap α
  | [] => m
  | (k, v) :: l => extend (insert m k v) l

/-- `collect::<BTreeMap<_, _>>()`. -/
def ofList (l : List (Str × α)) : BMap α := extend [] l

end BMap

end Dune
