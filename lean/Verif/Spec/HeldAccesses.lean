import Verif.Model.HeldAccesses
import Verif.Spec.HeldThreads
/-! # When single accesses implement the statements of programs that hold views and iterators -/
namespace U5e.Spec
open U5e

/-- The string a source belongs to. -/
def placeOf (V : HeldVars) : Place → List Nat
  | .whole s | .view s _ _ => [s]
  | .held v | .part v _ _ => match V.views v with
    | some x => [x.1]
    | none => []
  | .between i j => (match V.its i with
    | some x => [x.1]
    | none => []) ++ (match V.its j with
    | some x => [x.1]
    | none => [])

/-- The strings a statement names, itself or by its variables. -/
def names (V : HeldVars) : HeldStmt → List Nat
  | .op op => match op with
    | .copy d s => [d, s]
    | .clear d | .appendCps d _ => [d]
    | .append d src | .convert d src | .appendGraphemes d src _ _ | .normalize _ d src => d :: placeOf V src
    | .write s _ _ | .transform s _ => [s]
    | .read src | .readBack src | .readGraphemes src | .countIf src _ => placeOf V src
    | .equal a b | .less a b => placeOf V a ++ placeOf V b
  | .hold _ src | .first _ src | .last _ src | .gfirst _ src | .glast _ src => placeOf V src
  | .mfirst _ s | .mlast _ s => [s]
  | .assign _ i | .next i | .prev i | .get i => (V.its i).toList.map (·.1)
  | .same i j => (V.its i).toList.map (·.1) ++ (V.its j).toList.map (·.1)
  | .gassign _ g | .gnext g | .gget g | .gstart _ g | .gstop _ g => (V.gits g).toList.map (·.1)
  | .gsame g h => (V.gits g).toList.map (·.1) ++ (V.gits h).toList.map (·.1)
  | .massign _ m | .mnext m | .mprev m | .mget m | .mset m _ => (V.mits m).toList.map (·.1)
  | .msame m n => (V.mits m).toList.map (·.1) ++ (V.mits n).toList.map (·.1)

/-- The string a statement names as what it changes. -/
def target (V : HeldVars) : HeldStmt → Option Nat
  | .op op => match op with
    | .copy d _ | .clear d | .append d _ | .appendCps d _ | .convert d _ | .appendGraphemes d _ _ _ | .normalize _ d _ => some d
    | .write s _ _ | .transform s _ => some s
    | .read _ | .readBack _ | .readGraphemes _ | .equal _ _ | .less _ _ | .countIf _ _ => none
  | .mset m _ => (V.mits m).map (·.1)
  | .hold _ _ | .first _ _ | .last _ _ | .assign _ _ | .next _ | .prev _ | .get _ | .same _ _ | .gfirst _ _ | .glast _ _
  | .gassign _ _ | .gnext _ | .gget _ | .gsame _ _ | .gstart _ _ | .gstop _ _ | .mfirst _ _ | .mlast _ _ | .massign _ _
  | .mnext _ | .mprev _ | .mget _ | .msame _ _ => none

/-- Whatever values are found, only the strings in `r` are accessed, and only `w` is changed. -/
def Keeps (r : List Nat) (w : Option Nat) : Accesses → Prop
  | .finished _ _ => True
  | .read s _ next => s ∈ r ∧ ∀ x, Keeps r w (next x)
  | .change s _ next => w = some s ∧ s ∈ r ∧ Keeps r w next

/-- Which string the next access is to, and whether it is a change. -/
def nextAccess : Accesses → Option (Nat × Bool)
  | .finished _ _ => none
  | .read s _ _ => some (s, false)
  | .change s _ _ => some (s, true)

/-- The encoding of a text. -/
def kindOf : Text → Kind
  | .utf8 _ => .utf8
  | .utf32 _ => .utf32

/-- The accesses stay within the strings the statement names, and made undisturbed on strings of the encodings `τ` they
have the effect the model of the library gives the statement (where that is defined; the bound on loops is an artefact of
the model). -/
def Compiles (sort : SortFn) (τ : Nat → Kind) (code : HeldCode) : Prop :=
  ∀ V k st, Keeps (names V st) (target V st) (code V k st) ∧
    ∀ μ M o N, (∀ s, kindOf (μ s).text = τ s) → (∀ fuel, N ≤ fuel → (V.on μ).execX sort fuel k st = .ok (M, o)) →
      (code V k st).alone μ = (M.cells, M.vars, o)

end U5e.Spec
