import Verif.Proofs.GenChecks
/-! Kernel evaluation: composition and grapheme cluster break tables. -/
namespace U5e
open Data Spec

def memB (x : Nat) : List Nat → Bool
  | [] => false
  | y :: l => Nat.beq x y || memB x l

theorem memB_iff {x : Nat} {l : List Nat} : memB x l = true ↔ x ∈ l := by
  induction l with
  | nil => simp [memB]
  | cons y l ih => simp [memB, ih]

noncomputable def cccU (k : Nat) : Nat := match ucdAt k with
  | none => 0
  | some r => r.ccc

def compSelB (r : UcdRow) : Bool := match r.decomp with
  | _ :: _ :: _ => Nat.beq r.tag 0 && Nat.beq r.ccc 0
  | _ => false

noncomputable def compGood (r : UcdRow) : Bool :=
  Nat.beq (cccU (r.decomp.headD 0)) 0 && !(memB r.cp exclRows)

noncomputable def compUcdOK (r : UcdRow) : Bool :=
  !(compSelB r) || (match r.decomp with
  | [a, b] => match compT a b with
    | some c => compGood r && Nat.beq c r.cp
    | none => !(compGood r)
  | _ => false)

set_option maxRecDepth 100000 in
theorem comp_of_ucd : ucdTree.all compUcdOK = true := by decide +kernel

noncomputable def compFromOK : List Nat → Bool
  | [a, b, c] => match ucdAt c with
    | some r => compSelB r && (compGood r && eqRow r.decomp [a, b])
    | none => false
  | _ => false

set_option maxRecDepth 100000 in
theorem ucd_of_comp : compTree.all compFromOK = true := by decide +kernel

def nodupB : List (List Nat) → Bool
  | [] => true
  | x :: l => l.all (fun y => !(eqRow x y)) && nodupB l

noncomputable def compBad : List (List Nat) :=
  ucdRows.filterMap (fun r => cond (compSelB r && !(compGood r)) (some r.decomp) none)

set_option maxRecDepth 100000 in
theorem compBad_nodup : nodupB compBad = true := by decide +kernel

/-- The order of the classes in GraphemeBreakProperty.txt. -/
def gcbOrder : List GCB := [.PREPEND, .CR, .LF, .CONTROL, .EXTEND, .REGIONAL_INDICATOR, .SPACINGMARK, .L, .V, .T,
  .LV, .LVT, .E_BASE, .E_MODIFIER, .ZWJ, .GLUE_AFTER_ZWJ, .E_BASE_GAZ]

set_option maxRecDepth 100000 in
theorem gcb_file : gcbOrder.flatMap (fun v => gcbTable.filter (fun r => decide (r.2.2 = v))) = gcbFileRows :=
  eqList_iff eqRange_iff (by decide +kernel)

def gcbInOrder (r : Nat × Nat × GCB) : Bool := decide (r.2.2 ∈ gcbOrder)

set_option maxRecDepth 100000 in
theorem gcb_inOrder : gcbTree.all gcbInOrder = true := by decide +kernel

end U5e
