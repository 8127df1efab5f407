import Verif.Proofs.GenSort
import Verif.Proofs.TreeTables
import Verif.Data.Ucd
import Verif.Data.UcdTree
import Verif.Data.CompExcl
import Verif.Data.GcbFile
/-! Kernel evaluation of the generators' inputs against the tables. -/
namespace U5e
open Data Spec

def eqUcd (a b : UcdRow) : Bool :=
  Nat.beq a.cp b.cp && (Nat.beq a.ccc b.ccc && (Nat.beq a.tag b.tag && eqRow a.decomp b.decomp))

theorem eqUcd_iff (a b : UcdRow) (h : eqUcd a b = true) : a = b := by
  obtain ⟨a1, a2, a3, a4⟩ := a; obtain ⟨b1, b2, b3, b4⟩ := b
  simp only [eqUcd, Bool.and_eq_true, Nat.beq_eq] at h
  obtain ⟨h1, h2, h3, h4⟩ := h
  rw [h1, h2, h3, eqRow_iff h4]

set_option maxRecDepth 100000 in
theorem ucdTree_toList : ucdTree.toList = ucdRows := tree_toList eqUcd_iff (by decide +kernel)

def ltU (a b : UcdRow) : Bool := Nat.blt a.cp b.cp

set_option maxRecDepth 100000 in
theorem ucd_chain : chainB ltU ucdRows = true := by decide +kernel

def cmpU (k : Nat) (r : UcdRow) : Ordering := cond (Nat.blt k r.cp) .lt (cond (Nat.blt r.cp k) .gt .eq)

noncomputable def ucdAt (k : Nat) : Option UcdRow := ucdTree.find (cmpU k)

/-- The primary mapping, by tree look-up. -/
noncomputable def decAt (compat : Bool) (k : Nat) : Option (List Nat) :=
  match ucdAt k with
  | none => none
  | some r => match r.decomp with
    | [] => none
    | x :: l => cond (Nat.beq r.tag 0 || (compat && Nat.beq r.tag 1)) (some (x :: l)) none

/-- Depth of a mapping. -/
def depthN (d : Nat → Option (List Nat)) : Nat → Nat → Nat
  | 0, _ => 0
  | n + 1, k => match d k with
    | none => 0
    | some m => (m.foldr (fun x acc => Nat.max (depthN d n x) acc) 0) + 1

/-- Full expansion of a codepoint, if `n` levels suffice. -/
def expandN (d : Nat → Option (List Nat)) : Nat → Nat → Option (List Nat)
  | 0, _ => none
  | n + 1, k => match d k with
    | none => some [k]
    | some m => m.foldr (fun x acc => match expandN d n x, acc with
      | some l, some l' => some (l ++ l')
      | _, _ => none) (some [])

noncomputable def rankOK (compat : Bool) (r : UcdRow) : Bool :=
  Nat.ble (depthN (decAt compat) 8 r.cp) 8 &&
  (match decAt compat r.cp with
  | none => true
  | some m => m.all (fun x => match decAt compat x with
    | none => true
    | some _ => Nat.blt (depthN (decAt compat) 8 x) (depthN (decAt compat) 8 r.cp)))

set_option maxRecDepth 100000 in
theorem rank_dec : ucdTree.all (rankOK false) = true := by decide +kernel
set_option maxRecDepth 100000 in
theorem rank_kdec : ucdTree.all (rankOK true) = true := by decide +kernel

/-- The rows of the decomposition tables made from the file. -/
noncomputable def mkDec (compat : Bool) (r : UcdRow) : Option (List Nat) :=
  match decAt compat r.cp with
  | none => none
  | some _ => match expandN (decAt compat) 8 r.cp with
    | none => some []
    | some l => some (r.cp :: (l ++ [0]))

set_option maxRecDepth 100000 in
theorem mk_dec : ucdRows.filterMap (mkDec false) = decTable :=
  eqList_iff (e := eqRow) (fun _ _ => eqRow_iff) (by decide +kernel)
set_option maxRecDepth 100000 in
theorem mk_kdec : ucdRows.filterMap (mkDec true) = kdecTable :=
  eqList_iff (e := eqRow) (fun _ _ => eqRow_iff) (by decide +kernel)

def mkCcc (r : UcdRow) : Option (List Nat) := cond (Nat.beq r.ccc 0) none (some [r.cp, r.ccc])

set_option maxRecDepth 100000 in
theorem mk_ccc : ucdRows.filterMap mkCcc = cccTable :=
  eqList_iff (e := eqRow) (fun _ _ => eqRow_iff) (by decide +kernel)

end U5e
