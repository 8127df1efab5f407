import Verif.Proofs.GenTables
import Verif.Proofs.TableChecks
import Verif.Proofs.NormText
import Verif.Spec.Ucd
/-!
# C40, C41, C43: the table generators

`substLoop`, `genCcc`, `genDec`, `genComp`, `genGcb` are the modelled scripts (Model/Generators.lean).
Perl's `keys` order is a parameter everywhere, in every round of every loop; `IsKeys d ks` says that `ks`
is some enumeration of the keys. `Spec.Expands d xs l`: `l` is the full expansion of `xs` under `d`.
-/
namespace U5e
open Data Spec

/-! ## C40 -/

/-- C40: whatever the orders in which two runs enumerate the hash, in every round, if both runs end they
end with the same table. For every mapping `d0`. -/
theorem C40_order_independent (d0 d1 d2 : Hash Nat (List Nat)) (orders1 orders2 : Nat → List Nat)
    (ho1 : ∀ n, IsKeys d0 (orders1 n)) (ho2 : ∀ n, IsKeys d0 (orders2 n)) (fuel1 fuel2 : Nat)
    (h1 : substLoop orders1 fuel1 0 d0 = some d1) (h2 : substLoop orders2 fuel2 0 d0 = some d2) :
    d1 = d2 := by
  obtain ⟨k1, e1⟩ := loop_correct orders1 ho1 fuel1 0 (Inv.refl _) h1
  obtain ⟨k2, e2⟩ := loop_correct orders2 ho2 fuel2 0 (Inv.refl _) h2
  funext k
  cases hd1 : d1 k with
  | none => exact ((k2 k).mpr ((k1 k).mp hd1)).symm
  | some m1 =>
    cases hd2 : d2 k with
    | none => rw [(k1 k).mpr ((k2 k).mp hd2)] at hd1; simp at hd1
    | some m2 => rw [(e1 k m1 hd1).det (e2 k m2 hd2)]

/-- C40: what the loop computes is the full expansion of every mapping, and no key is lost or added. -/
theorem C40_fully_expanded (d0 d : Hash Nat (List Nat)) (orders : Nat → List Nat)
    (ho : ∀ n, IsKeys d0 (orders n)) (fuel : Nat) (h : substLoop orders fuel 0 d0 = some d) :
    (∀ k, d k = none ↔ d0 k = none) ∧ ∀ k m, d k = some m → Expands d0 [k] m ∧ ∀ x ∈ m, d0 x = none := by
  obtain ⟨h1, h2⟩ := loop_correct orders ho fuel 0 (Inv.refl _) h
  refine ⟨h1, fun k m hm => ⟨h2 k m hm, ?_⟩⟩
  have : ∀ xs l, Expands d0 xs l → ∀ x ∈ l, d0 x = none := by
    intro xs l hl
    induction hl with
    | nil => simp
    | keep hx _ ih =>
      intro y hy
      rcases List.mem_cons.mp hy with rfl | hy
      · exact hx
      · exact ih y hy
    | expand _ _ _ ih1 ih2 =>
      intro y hy
      rcases List.mem_append.mp hy with hy | hy
      · exact ih1 y hy
      · exact ih2 y hy
  exact this _ _ (h2 k m hm)

/-- C40, exact termination: the loop ends - for every enumeration, after at most one round more than there
are mappings - if and only if the mapping is not circular. -/
theorem C40_terminates_iff (d0 : Hash Nat (List Nat)) (ks : List Nat) (hk : IsKeys d0 ks) :
    (∀ orders : Nat → List Nat, (∀ n, IsKeys d0 (orders n)) → ∀ fuel, ks.length < fuel →
      ∃ d, substLoop orders fuel 0 d0 = some d) ↔ ¬ Circular d0 := by
  constructor
  · rintro h ⟨S, hS, hc⟩
    obtain ⟨d, hd⟩ := h (fun _ => ks) (fun _ => hk) (ks.length + 1) (by omega)
    rw [loop_circular hS hc (fun _ => ks) (fun _ => hk) (fun _ => Iff.rfl)] at hd
    simp at hd
  · intro h orders ho fuel hf
    exact loop_ends hk h orders ho fuel hf

/-- C40: with a circular mapping no run ever ends, whatever the order. -/
theorem C40_circular_never_ends (d0 : Hash Nat (List Nat)) (hc : Circular d0) (orders : Nat → List Nat)
    (ho : ∀ n, IsKeys d0 (orders n)) (fuel : Nat) : substLoop orders fuel 0 d0 = none := by
  obtain ⟨S, hS, hc⟩ := hc
  exact loop_circular hS hc orders ho (fun _ => Iff.rfl) fuel 0

/-- Instance: 1 ↦ 2, 2 ↦ 1, whatever the order in each round. -/
example (orders : Nat → List Nat)
    (ho : ∀ n, IsKeys (fun k => if k = 1 then some [2] else if k = 2 then some [1] else none) (orders n)) (fuel : Nat) :
    substLoop orders fuel 0 (fun k => if k = 1 then some [2] else if k = 2 then some [1] else none) = none :=
  C40_circular_never_ends _ ⟨fun k => k = 1 ∨ k = 2, ⟨1, .inl rfl⟩, by
    rintro k (rfl | rfl)
    · exact ⟨[2], rfl, 2, by simp, .inr rfl⟩
    · exact ⟨[1], rfl, 1, by simp, .inl rfl⟩⟩ orders ho fuel

/-- Non-vacuity: 1 ↦ 2 5, 2 ↦ 3 4 in both orders; the first order needs one more round of substitution. -/
def exampleHash : Hash Nat (List Nat) := fun k => if k = 1 then some [2, 5] else if k = 2 then some [3, 4] else none

theorem exampleHash_runs : IsKeys exampleHash [1, 2] ∧ IsKeys exampleHash [2, 1] ∧
    ((substLoop (fun _ => [1, 2]) 3 0 exampleHash).map (fun d => (d 1, d 2))) = some (some [3, 4, 5], some [3, 4]) ∧
    ((substLoop (fun _ => [2, 1]) 3 0 exampleHash).map (fun d => (d 1, d 2))) = some (some [3, 4, 5], some [3, 4]) := by
  refine ⟨⟨by decide, ?_⟩, ⟨by decide, ?_⟩, by decide, by decide⟩ <;>
  · intro k
    simp only [exampleHash]
    by_cases h1 : k = 1
    · simp [h1]
    · by_cases h2 : k = 2 <;> simp [h1, h2]

/-- The theorems applied to it: the two orders, alternating orders, and the number of rounds. -/
example (d1 d2 : Hash Nat (List Nat)) (h1 : substLoop (fun _ => [1, 2]) 3 0 exampleHash = some d1)
    (h2 : substLoop (fun n => if n % 2 = 0 then [2, 1] else [1, 2]) 7 0 exampleHash = some d2) : d1 = d2 :=
  C40_order_independent exampleHash d1 d2 _ _ (fun _ => exampleHash_runs.1)
    (fun n => by show IsKeys exampleHash (if n % 2 = 0 then [2, 1] else [1, 2])
                 split
                 · exact exampleHash_runs.2.1
                 · exact exampleHash_runs.1) 3 7 h1 h2

example := C40_terminates_iff exampleHash [1, 2] exampleHash_runs.1

example : ∃ d, substLoop (fun _ => [1, 2]) 3 0 exampleHash = some d ∧
    ∀ k m, d k = some m → Expands exampleHash [k] m ∧ ∀ x ∈ m, exampleHash x = none := by
  have h : (substLoop (fun _ => [1, 2]) 3 0 exampleHash).isSome = true := by decide
  obtain ⟨d, hd⟩ := Option.isSome_iff_exists.mp h
  exact ⟨d, hd, (C40_fully_expanded exampleHash d _ (fun _ => exampleHash_runs.1) 3 hd).2⟩

/-- Non-vacuity: 1 ↦ 2, 2 ↦ 1 is circular. -/
example : Circular (fun k => if k = 1 then some [2] else if k = 2 then some [1] else none) :=
  ⟨fun k => k = 1 ∨ k = 2, ⟨1, .inl rfl⟩, by
    rintro k (rfl | rfl)
    · exact ⟨[2], rfl, 2, by simp, .inr rfl⟩
    · exact ⟨[1], rfl, 1, by simp, .inl rfl⟩⟩

/-- C40 for the whole decomposition generators: on any input file, two runs that end write the same file. -/
theorem C40_decomposition_output (compat : Bool) (file : List UcdRow)
    (orders1 orders2 : Nat → List Nat) (ks1 ks2 : List Nat)
    (ho1 : ∀ n, IsKeys (readDec compat file) (orders1 n)) (hk1 : IsKeys (readDec compat file) ks1)
    (ho2 : ∀ n, IsKeys (readDec compat file) (orders2 n)) (hk2 : IsKeys (readDec compat file) ks2)
    (fuel1 fuel2 : Nat) (out1 out2 : List (List Nat))
    (h1 : genDec compat orders1 ks1 fuel1 file = some out1)
    (h2 : genDec compat orders2 ks2 fuel2 file = some out2) : out1 = out2 := by
  rw [genDec] at h1 h2
  cases hd1 : substLoop orders1 fuel1 0 (readDec compat file) with
  | none => rw [hd1] at h1; simp at h1
  | some d1 =>
    cases hd2 : substLoop orders2 fuel2 0 (readDec compat file) with
    | none => rw [hd2] at h2; simp at h2
    | some d2 =>
      rw [hd1] at h1; rw [hd2] at h2
      rw [C40_order_independent _ _ _ _ _ ho1 ho2 _ _ hd1 hd2] at h1
      have hp : ks1.Perm ks2 := (List.perm_ext_iff_of_nodup hk1.1 hk2.1).mpr fun k => (hk1.2 k).trans (hk2.2 k).symm
      have hs : ks1.mergeSort (fun a b => decide (a ≤ b)) = ks2.mergeSort (fun a b => decide (a ≤ b)) := by
        refine mergeSort_unique ?_ ?_ (hp.trans (List.mergeSort_perm ks2 _).symm)
          (List.pairwise_mergeSort ?_ ?_ ks2) ?_
        · intro a b c; simp; omega
        · intro a b; simp; omega
        · intro a b c; simp; omega
        · intro a b; simp; omega
        · intro a b _ _; simp; omega
      simp only [Option.some.injEq] at h1 h2
      rw [← h1, ← h2, hs]

/-! ## C41 -/

/-- C41: canonical_combining_class_data.pl makes the checked-in table, for every enumeration of its hash. -/
theorem C41_combining_class (file : List UcdRow) (hf : IsUnicodeData file) (ks : List Nat)
    (hk : IsKeys (readCcc file) ks) : genCcc ks file = cccTable := genCcc_eq hf.distinct hf.relevant hk

/-- C41: canonical_decomposition_mapping_data.pl ends (in at most 9 rounds) and makes the checked-in
table, for every enumeration of its hash in every round. -/
theorem C41_canonical_decomposition (file : List UcdRow) (hf : IsUnicodeData file) (orders : Nat → List Nat)
    (ho : ∀ n, IsKeys (readDec false file) (orders n)) (ks : List Nat) (hk : IsKeys (readDec false file) ks)
    (fuel : Nat) (hfu : 8 < fuel) : genDec false orders ks fuel file = some decTable :=
  genDec_eq false hf.distinct hf.relevant ho hk hfu

/-- C41: compatibility_and_canonical_decomposition_mapping_data.pl, likewise. -/
theorem C41_compatibility_decomposition (file : List UcdRow) (hf : IsUnicodeData file)
    (orders : Nat → List Nat) (ho : ∀ n, IsKeys (readDec true file) (orders n)) (ks : List Nat)
    (hk : IsKeys (readDec true file) ks) (fuel : Nat) (hfu : 8 < fuel) :
    genDec true orders ks fuel file = some kdecTable := genDec_eq true hf.distinct hf.relevant ho hk hfu

/-- C41: canonical_composition_mapping_data.pl makes the checked-in table, for all enumerations. -/
theorem C41_composition (file : List UcdRow) (hf : IsUnicodeData file) (ks1 ks2 : List (List Nat))
    (h1 : IsKeys (compRead file) ks1)
    (h2 : IsKeys (compDelete (compCcc file) exclRows (compRead file) ks1) ks2) :
    genComp ks1 ks2 exclRows file = compTable := genComp_eq hf.distinct hf.relevant h1 h2

/-- C41: grapheme_cluster_break_data.sh makes the checked-in table. -/
theorem C41_grapheme_cluster_break : genGcb gcbFileRows = gcbTable := genGcb_eq

/-- Non-vacuity: the recorded lines themselves are such a file, with any irrelevant line added; and hashes
have enumerations. -/
example : IsUnicodeData ucdRows ∧ IsUnicodeData (⟨65, 0, 0, []⟩ :: ucdRows) := by
  have h65 : (65 : Nat) ∉ ucdRows.map UcdRow.cp := by
    intro h
    obtain ⟨r, hr, he⟩ := List.mem_map.mp h
    have := ucdAt_iff.mpr ⟨hr, he⟩
    have h0 : ucdAt 65 = none := by
      have : (ucdAt 65).isNone = true := by decide +kernel
      simpa using this
    rw [h0] at this; simp at this
  have hall : ∀ r ∈ ucdRows, (fun r : UcdRow => decide (r.ccc ≠ 0 ∨ r.decomp ≠ [])) r = true := by
    intro r hr
    exact ucd_all (p := Relevant) (by decide +kernel) hr
  refine ⟨⟨ucd_nodup, List.filter_eq_self.mpr hall⟩, ⟨?_, ?_⟩⟩
  · rw [List.map_cons, List.nodup_cons]; exact ⟨h65, ucd_nodup⟩
  · rw [List.filter_cons, List.filter_eq_self.mpr hall]; rfl

end U5e
