/-!
# Specification vocabulary for decomposition, ordering and composition

Everything is stated over an abstract character database: `map c` is the (possibly multi-character,
zero-terminated) mapping of `c` if there is one, `ccc` the combining class, `comp` the pairwise
composition.
-/
namespace U5e.Spec

/-- The decomposition of one codepoint: the entries of its mapping before the terminating zero, or
the codepoint itself. -/
def full (map : Int → Option (List Int)) (c : Int) : List Int :=
  match map c with
  | none => [c]
  | some m => m.takeWhile (· != 0)

/-- Decomposition of a sequence of codepoints. -/
def decompose (map : Int → Option (List Int)) (cs : List Int) : List Int := cs.flatMap (full map)

/-- `l` is ordered by combining class. -/
def CccSorted (ccc : Int → Int) (l : List Int) : Prop := l.Pairwise (fun a b => ccc a ≤ ccc b)

/-- A strict weak ordering, the requirement of `std::sort` on its comparator ([alg.sorting]). -/
structure StrictWeak (lt : Int → Int → Bool) : Prop where
  irrefl : ∀ a, lt a a = false
  trans : ∀ a b c, lt a b = true → lt b c = true → lt a c = true
  incomp : ∀ a b c, lt a b = false → lt b a = false → lt b c = false → lt c b = false →
    lt a c = false ∧ lt c a = false

/-- All that the C++ standard promises about `std::sort(first, last, comp)`: for a strict weak
ordering the result is a permutation in which no element is less than an earlier one. -/
def ConformingSort (sort : (Int → Int → Bool) → List Int → List Int) : Prop :=
  ∀ lt, StrictWeak lt → ∀ l, (sort lt l).Perm l ∧ (sort lt l).Pairwise (fun a b => lt b a = false)

/-- A stable sort in addition keeps equivalent elements in order: for every element, the subsequence of
elements equivalent to it is unchanged. (`std::sort` does NOT promise this, `std::stable_sort` does.) -/
def StableSort (sort : (Int → Int → Bool) → List Int → List Int) : Prop :=
  ConformingSort sort ∧ ∀ lt, StrictWeak lt → ∀ l x,
    (sort lt l).filter (fun y => !lt x y && !lt y x) = l.filter (fun y => !lt x y && !lt y x)

end U5e.Spec

namespace U5e.Spec

/-- Greedy left-to-right composition of adjacent codepoints: `a` is the codepoint being built. -/
def composeFrom (comp : Int → Int → Option Int) (a : Int) : List Int → List Int
  | [] => [a]
  | b :: l =>
    match comp a b with
    | some c => composeFrom comp c l
    | none => a :: composeFrom comp b l

/-- Greedy left-to-right composition of adjacent codepoints. -/
def compose (comp : Int → Int → Option Int) : List Int → List Int
  | [] => []
  | a :: l => composeFrom comp a l

end U5e.Spec
