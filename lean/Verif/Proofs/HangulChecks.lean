import Verif.Proofs.NormFacts
import Verif.Spec.Uax15
/-! Hangul syllables and conjoining jamo do not occur in the tables, by kernel evaluation of all rows. -/
namespace U5e
open Data Spec

/-- Precomposed syllables. -/
def syl (n : Nat) : Bool := Nat.ble 0xAC00 n && Nat.ble n 0xD7A3
/-- Precomposed syllables and the conjoining jamo block. -/
def hang (n : Nat) : Bool := (Nat.ble 0x1100 n && Nat.ble n 0x11FF) || syl n

def decHangOK : List Nat → Bool
  | [] => false
  | k :: m => !hang k && m.all (fun x => !syl x)
def cccHangOK : List Nat → Bool
  | [] => false
  | k :: _ => !hang k
def compHangOK (r : List Nat) : Bool := r.all (fun x => !hang x)

set_option maxRecDepth 100000 in
theorem dec_hang : decTree.all decHangOK = true := by decide +kernel
set_option maxRecDepth 100000 in
theorem kdec_hang : kdecTree.all decHangOK = true := by decide +kernel
set_option maxRecDepth 100000 in
theorem ccc_hang : cccTree.all cccHangOK = true := by decide +kernel
set_option maxRecDepth 100000 in
theorem comp_hang : compTree.all compHangOK = true := by decide +kernel

/-- Syllable or conjoining jamo. -/
def Hang (c : Int) : Prop := (0x1100 ≤ c ∧ c ≤ 0x11FF) ∨ IsHangulSyllable c

theorem hang_iff (n : Nat) : hang n = true ↔ Hang n := by
  simp only [hang, syl, Hang, IsHangulSyllable, Bool.or_eq_true, Bool.and_eq_true, Nat.ble_eq]; omega
theorem syl_iff (n : Nat) : syl n = true ↔ IsHangulSyllable n := by
  simp only [syl, IsHangulSyllable, Bool.and_eq_true, Nat.ble_eq]; omega

theorem hang_map_aux {map : Int → Option (List Int)} {f : Nat → Option (List Nat)} {tr : Tree (List Nat)}
    (hn : ∀ c : Nat, map c = (f c).map (·.map Int.ofNat)) (hneg : ∀ c : Int, c < 0 → map c = none)
    (hf : ∀ c, f c = (tr.find (cmpN c)).map List.tail) (hrows : tr.all decHangOK = true)
    {c : Int} {m : List Int} (hm : map c = some m) :
    ¬ Hang c ∧ ∀ x ∈ m, ¬ IsHangulSyllable x := by
  obtain ⟨n, rfl⟩ : ∃ n : Nat, c = n := by
    by_cases h : c < 0
    · rw [hneg c h] at hm; simp at hm
    · exact ⟨c.toNat, by omega⟩
  rw [hn, hf] at hm
  cases hfind : tr.find (cmpN n) with
  | none => rw [hfind] at hm; simp at hm
  | some row =>
    rw [hfind] at hm
    obtain ⟨hmem, hcmp⟩ := Tree.find_some hfind
    have hrow := (Tree.all_iff _ _).mp hrows row hmem
    cases row with
    | nil => simp [decHangOK] at hrow
    | cons k m' =>
      have hk : n = k := by
        have := cmpRow_eq.mp ((cmpN_eq n (k :: m')) ▸ hcmp)
        simp [key0] at this; omega
      subst hk
      simp only [Option.map_some, List.tail_cons, Option.some.injEq] at hm
      subst hm
      simp only [decHangOK, Bool.and_eq_true, Bool.not_eq_true'] at hrow
      refine ⟨?_, ?_⟩
      · rw [← hang_iff]; simp [hrow.1]
      · intro x hx
        obtain ⟨y, hy, rfl⟩ := List.mem_map.mp hx
        have := List.all_eq_true.mp hrow.2 y hy
        intro hs
        rw [(syl_iff y).mpr hs] at this; simp at this

theorem hang_dec {c : Int} {m : List Int} (h : decResolve c = some m) :
    ¬ Hang c ∧ ∀ x ∈ m, ¬ IsHangulSyllable x :=
  hang_map_aux decResolve_nat decResolve_neg (fun _ => rfl) dec_hang h
theorem hang_kdec {c : Int} {m : List Int} (h : kdecResolve c = some m) :
    ¬ Hang c ∧ ∀ x ∈ m, ¬ IsHangulSyllable x :=
  hang_map_aux kdecResolve_nat kdecResolve_neg (fun _ => rfl) kdec_hang h

theorem hang_ccc {c : Int} (h : Hang c) : cccResolve c = 0 := by
  by_cases hneg : c < 0
  · exact cccResolve_neg c hneg
  · obtain ⟨n, rfl⟩ : ∃ n : Nat, c = n := ⟨c.toNat, by omega⟩
    rw [cccResolve_nat, cccT]
    cases hfind : cccTree.find (cmpN n) with
    | none => rfl
    | some row =>
      exfalso
      obtain ⟨hmem, hcmp⟩ := Tree.find_some hfind
      have hrow := (Tree.all_iff _ _).mp ccc_hang row hmem
      cases row with
      | nil => simp [cccHangOK] at hrow
      | cons k v =>
        have hk : n = k := by
          have := cmpRow_eq.mp ((cmpN_eq n (k :: v)) ▸ hcmp)
          simp [key0] at this; omega
        subst hk
        simp only [cccHangOK, Bool.not_eq_true'] at hrow
        rw [(hang_iff n).mpr h] at hrow; simp at hrow

theorem hang_comp {a b c : Int} (h : compResolve a b = some c) : ¬ Hang a ∧ ¬ Hang b ∧ ¬ Hang c := by
  obtain ⟨i, j, k, rfl, rfl, rfl, hm⟩ := (C27_comp_iff a b c).mp h
  rw [← compTree_toList] at hm
  have hrow := (Tree.all_iff _ _).mp comp_hang _ hm
  simp only [compHangOK, List.all_cons, List.all_nil, Bool.and_true, Bool.and_eq_true,
    Bool.not_eq_true'] at hrow
  obtain ⟨h1, h2, h3⟩ := hrow
  refine ⟨?_, ?_, ?_⟩ <;> rw [← hang_iff] <;> simp [*]

end U5e
