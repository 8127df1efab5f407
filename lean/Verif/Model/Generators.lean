import Verif.Model.Ucd
import Verif.Model.GcbEnum
/-!
# Model of the table generators, src/u5e/props/*_data.pl and grapheme_cluster_break_data.sh

Perl hashes are partial functions; `keys %d` may enumerate the keys in any order, different in every
run and, here, even at every use: the orders are parameters. Files are lists of already split lines
(`UcdRow`); keys are numbers instead of canonical hexadecimal strings (see tools/gen_ucd.py). Warnings,
`die` on missing files and output formatting are not modelled; the output file is the list of its rows.
-/
namespace U5e

/-- A Perl hash, e.g. `%d` in src/u5e/props/canonical_decomposition_mapping_data.pl:13. -/
abbrev Hash (κ α : Type) := κ → Option α

/-- `$d{$k} = $v`, src/u5e/props/canonical_decomposition_mapping_data.pl:21. -/
def Hash.set {κ α : Type} [DecidableEq κ] (d : Hash κ α) (k : κ) (v : α) : Hash κ α :=
  fun x => if x = k then some v else d x

/-- `delete $d{$k}`, src/u5e/props/canonical_composition_mapping_data.pl:57. -/
def Hash.del {κ α : Type} [DecidableEq κ] (d : Hash κ α) (k : κ) : Hash κ α :=
  fun x => if x = k then none else d x

/-- What `keys %d` may return (src/u5e/props/canonical_decomposition_mapping_data.pl:32,51): every key once, in any
order. -/
def IsKeys {κ α : Type} (d : Hash κ α) (ks : List κ) : Prop := ks.Nodup ∧ ∀ k, k ∈ ks ↔ d k ≠ none

/-- src/u5e/props/canonical_combining_class_data.pl:11-18, the reading loop: `next unless $class`. -/
def readCcc (file : List UcdRow) : Hash Nat Nat :=
  file.foldl (fun d r => if r.ccc = 0 then d else d.set r.cp r.ccc) (fun _ => none)

/-- src/u5e/props/canonical_combining_class_data.pl:24-33, the output. `ks` is `keys %d`. -/
def genCcc (ks : List Nat) (file : List UcdRow) : List (List Nat) :=
  let d := readCcc file
  (ks.mergeSort (fun a b => decide (a ≤ b))).map (fun k => [k, (d k).getD 0])

/-- src/u5e/props/canonical_decomposition_mapping_data.pl:14-22 (`compat = false`: `next if $decomposition =~ /^\</`)
and compatibility_and_canonical_decomposition_mapping_data.pl:14-25 (`compat = true`: the prefix
`<compat> ` is removed first), the reading loops. -/
def readDec (compat : Bool) (file : List UcdRow) : Hash Nat (List Nat) :=
  file.foldl (fun d r =>
    if r.decomp = [] then d
    else if r.tag = 0 ∨ (compat = true ∧ r.tag = 1) then d.set r.cp r.decomp
    else d) (fun _ => none)

/-- src/u5e/props/canonical_decomposition_mapping_data.pl:32-45 (and
compatibility_and_canonical_decomposition_mapping_data.pl:35-48): one round of `foreach my $k (keys %d)`, with the flag
`$continue`. The keys are numbers here and strings in Model/Script.lean. -/
def substPass {κ : Type} [DecidableEq κ] (d : Hash κ (List κ)) : List κ → Bool → Hash κ (List κ) × Bool
  | [], cont => (d, cont)
  | k :: ks, cont =>
    let m := (d k).getD []
    let m' := m.flatMap (fun x => (d x).getD [x])
    substPass (d.set k m') ks (cont || m.any (fun x => (d x).isSome))

/-- src/u5e/props/canonical_decomposition_mapping_data.pl:29-46, `while ($continue)`, with fuel; `orders n` is
`keys %d` in round `n`. -/
def substLoop {κ : Type} [DecidableEq κ] (orders : Nat → List κ) :
    Nat → Nat → Hash κ (List κ) → Option (Hash κ (List κ))
  | 0, _, _ => none
  | fuel + 1, n, d =>
    let (d', cont) := substPass d (orders n) false
    if cont then substLoop orders fuel (n + 1) d' else some d'

/-- canonical_decomposition_mapping_data.pl and compatibility_and_canonical_decomposition_mapping_data.pl as a whole
(src/u5e/props/canonical_decomposition_mapping_data.pl:11-62); `ks` is `keys %d` at the output. -/
def genDec (compat : Bool) (orders : Nat → List Nat) (ks : List Nat) (fuel : Nat) (file : List UcdRow) :
    Option (List (List Nat)) :=
  match substLoop orders fuel 0 (readDec compat file) with
  | none => none
  | some d =>
    some ((ks.mergeSort (fun a b => decide (a ≤ b))).map (fun k => k :: ((d k).getD [] ++ [0])))

/-- src/u5e/props/canonical_composition_mapping_data.pl:13-20, the hash `%ccc`. -/
def compCcc (file : List UcdRow) : Hash Nat Nat :=
  file.foldl (fun d r => d.set r.cp r.ccc) (fun _ => none)

/-- src/u5e/props/canonical_composition_mapping_data.pl:14-36, the hash `%d`: canonical mappings with at least two
entries of codepoints of class 0, keyed by the mapping. -/
def compRead (file : List UcdRow) : Hash (List Nat) Nat :=
  file.foldl (fun d r =>
    if r.decomp = [] then d
    else if r.tag ≠ 0 then d
    else if r.decomp.length < 2 then d
    else if r.ccc ≠ 0 then d
    else d.set r.decomp r.cp) (fun _ => none)

/-- src/u5e/props/canonical_composition_mapping_data.pl:51-65, the deletions; `ks` is `@all_decompositions`. -/
def compDelete (ccc : Hash Nat Nat) (excl : List Nat) (d : Hash (List Nat) Nat) :
    List (List Nat) → Hash (List Nat) Nat
  | [] => d
  | k :: ks =>
    if (ccc (k.headD 0)).getD 0 ≠ 0 then compDelete ccc excl (d.del k) ks
    else match d k with
      | some composition =>
        if composition ∈ excl then compDelete ccc excl (d.del k) ks else compDelete ccc excl d ks
      | none => compDelete ccc excl d ks

/-- src/u5e/props/canonical_composition_mapping_data.pl:71-82, the comparison (`a <= b`). -/
def compLe (a b : List Nat) : Bool :=
  decide (a.headD 0 < b.headD 0 ∨ (a.headD 0 = b.headD 0 ∧ a.tail.headD 0 ≤ b.tail.headD 0))

/-- src/u5e/props/canonical_composition_mapping_data.pl as a whole; `ks1`, `ks2` are the two uses of `keys %d`
(lines 51 and 82). -/
def genComp (ks1 ks2 : List (List Nat)) (excl : List Nat) (file : List UcdRow) : List (List Nat) :=
  let d := compDelete (compCcc file) excl (compRead file) ks1
  (ks2.mergeSort compLe).map (fun k => [k.headD 0, k.tail.headD 0, (d k).getD 0])

/-- src/u5e/props/grapheme_cluster_break_data.sh:2-6: the entries, sorted numerically by the first codepoint
(`sort -k2 -n`; its last-resort comparison of whole lines is left out, the first codepoints are
distinct). -/
def genGcb (file : List (Nat × Nat × GCB)) : List (Nat × Nat × GCB) :=
  file.mergeSort (fun a b => decide (a.1 ≤ b.1))

end U5e
