import Verif.Proofs.TreeTables
import Verif.Spec.Normal
/-! Facts about all rows of the tables, by kernel evaluation. -/
namespace U5e
open Data Spec

def takeNZ : List Nat → List Nat
  | [] => []
  | x :: l => if Nat.beq x 0 then [] else x :: takeNZ l

/-- `full` on naturals, by tree look-up. -/
def fullT (f : Nat → Option (List Nat)) (c : Nat) : List Nat :=
  match f c with
  | none => [c]
  | some m => takeNZ m

theorem takeNZ_map (m : List Nat) : (m.map Int.ofNat).takeWhile (· != 0) = (takeNZ m).map Int.ofNat := by
  induction m with
  | nil => rfl
  | cons x m ih =>
    rw [List.map_cons, List.takeWhile_cons, takeNZ, ih]
    cases x with
    | zero => rfl
    | succ n => rfl

theorem full_nat {map : Int → Option (List Int)} {f : Nat → Option (List Nat)}
    (h : ∀ c : Nat, map c = (f c).map (·.map Int.ofNat)) (c : Nat) :
    full map c = (fullT f c).map Int.ofNat := by
  rw [full, fullT, h]
  cases f c with
  | none => rfl
  | some m => exact takeNZ_map m

theorem full_neg {map : Int → Option (List Int)} (h : ∀ c : Int, c < 0 → map c = none) (c : Int)
    (hc : c < 0) : full map c = [c] := by
  rw [full, h c hc]

def isCtl (v : GCB) : Bool := match v with
  | .CR | .LF | .CONTROL => true
  | _ => false

/-- How the first codepoint of a decomposition may differ in break class. -/
def headOK (k h : GCB) : Bool := match k, h with
  | .OTHER, .OTHER | .OTHER, .L | .OTHER, .V | .OTHER, .T => true
  | .SPACINGMARK, .SPACINGMARK | .SPACINGMARK, .EXTEND | .EXTEND, .EXTEND => true
  | _, _ => false

noncomputable def decRowOK (f : Nat → Option (List Nat)) : List Nat → Bool
  | [] => false
  | k :: m =>
    match takeNZ m with
    | [] => false
    | h :: t =>
      headOK (gcbT k) (gcbT h) &&
      ((h :: t).all (fun x => (f x).isNone && ((decT x).isNone && !(gcbT x == GCB.E_MODIFIER))) &&
      chainB (fun a b => Nat.ble (cccT a) (cccT b)) (h :: t))

instance : BEq GCB := ⟨fun a b => decide (a = b)⟩

set_option maxRecDepth 100000 in
theorem dec_rows : decTree.all (decRowOK decT) = true := by decide +kernel

set_option maxRecDepth 100000 in
theorem kdec_rows : kdecTree.all (decRowOK kdecT) = true := by decide +kernel

noncomputable def kdecOfDec : List Nat → Bool
  | [] => false
  | k :: m => eqRow (fullT kdecT k) ((takeNZ m).flatMap (fullT kdecT))

set_option maxRecDepth 100000 in
theorem dec_kdec_rows : decTree.all kdecOfDec = true := by decide +kernel

noncomputable def cccRowOK : List Nat → Bool
  | [k, v] => Nat.blt 0 v && (Nat.blt v 256 && (match gcbT k with
    | .EXTEND | .SPACINGMARK => true
    | _ => false))
  | _ => false

set_option maxRecDepth 100000 in
theorem ccc_rows : cccTree.all cccRowOK = true := by decide +kernel

noncomputable def compRowOK : List Nat → Bool
  | [a, b, c] =>
    eqRow (fullT decT c) (fullT decT a ++ fullT decT b) &&
    ((match gcbT b with | .EXTEND | .SPACINGMARK => true | _ => false) &&
    ((match gcbT a with | .OTHER | .EXTEND | .SPACINGMARK => true | _ => false) &&
    ((match gcbT c with | .OTHER | .EXTEND | .SPACINGMARK => true | _ => false) &&
    (Nat.beq (cccT a) 0 && (Nat.beq (cccT c) 0 && ((decT b).isNone && ((kdecT b).isNone &&
      ((decT c).isSome && Nat.blt 0 c))))))))
  | _ => false

set_option maxRecDepth 100000 in
theorem comp_rows : compTree.all compRowOK = true := by decide +kernel

end U5e
