import Verif.Proofs.Idem
/-! Table facts used for mixing canonical and compatibility forms, by kernel evaluation. -/
namespace U5e
open Data Spec

/-- Canonical rows: same class for the head of an Other, marks after the head. -/
noncomputable def decTailOK : List Nat → Bool
  | [] => false
  | k :: m =>
    match takeNZ m with
    | [] => false
    | h :: t =>
      (match gcbT k, gcbT h with
        | .OTHER, .OTHER | .SPACINGMARK, .SPACINGMARK | .SPACINGMARK, .EXTEND | .EXTEND, .EXTEND => true
        | _, _ => false) &&
      (t.all (fun x => match gcbT x with | .EXTEND | .SPACINGMARK => true | _ => false) &&
      (h :: t).all (fun x => !(Nat.beq x 0xF77) && !(Nat.beq x 0xF79)))

set_option maxRecDepth 100000 in
theorem dec_tail_rows : decTree.all decTailOK = true := by decide +kernel

/-- Compatibility rows: of a codepoint without canonical mapping; it is a starter, and if its mapping
contains non-starters it is Other, or one of two Tibetan vowels. -/
noncomputable def kdecSpecialOK : List Nat → Bool
  | [] => false
  | k :: m =>
    (decT k).isSome ||
    (Nat.beq (cccT k) 0 &&
      ((takeNZ m).all (fun x => Nat.beq (cccT x) 0) ||
        ((match gcbT k with | .OTHER => true | _ => false) || (Nat.beq k 0xF77 || Nat.beq k 0xF79))))

set_option maxRecDepth 100000 in
theorem kdec_special_rows : kdecTree.all kdecSpecialOK = true := by decide +kernel

theorem row_of {f : Nat → Option (List Nat)} {tr : Tree (List Nat)} {p : List Nat → Bool}
    (hf : ∀ c, f c = (tr.find (cmpN c)).map List.tail) (hp : tr.all p = true) (hnil : p [] = false)
    {n : Nat} {m : List Nat} (h : f n = some m) : p (n :: m) = true := by
  have hfn' := h
  rw [hf] at hfn'
  cases hfind : tr.find (cmpN n) with
  | none => rw [hfind] at hfn'; simp at hfn'
  | some row =>
    rw [hfind] at hfn'
    simp only [Option.map_some, Option.some.injEq] at hfn'
    obtain ⟨hmem, hcmp⟩ := Tree.find_some hfind
    have hrow := (Tree.all_iff _ _).mp hp row hmem
    cases row with
    | nil => rw [hnil] at hrow; simp at hrow
    | cons k m' =>
      have hk : n = k := by
        have := cmpRow_eq.mp ((cmpN_eq n (k :: m')) ▸ hcmp)
        simp [key0] at this; omega
      subst hk
      simp only [List.tail_cons] at hfn'
      subst hfn'
      exact hrow

/-- A canonical decomposition: head of the same kind, then marks. -/
theorem dec_shape {c : Int} {m : List Int} (hm : decResolve c = some m) :
    ∃ h t, fullD c = h :: t ∧ isOES (gcbResolve c) = true ∧
      (isPlain (gcbResolve c) = true → gcbResolve h = .OTHER) ∧
      (gcbResolve c = .OTHER ∨ isMark (gcbResolve h) = true) ∧
      (gcbResolve h = .OTHER → gcbResolve c = .OTHER) ∧
      (∀ x ∈ t, isMark (gcbResolve x) = true) ∧ ∀ x ∈ h :: t, x ≠ 0xF77 ∧ x ≠ 0xF79 := by
  obtain ⟨n, rfl⟩ : ∃ n : Nat, c = n := by
    by_cases h : c < 0
    · rw [decResolve_neg c h] at hm; simp at hm
    · exact ⟨c.toNat, by omega⟩
  rw [decResolve_nat] at hm
  cases hf : decT n with
  | none => rw [hf] at hm; simp at hm
  | some l =>
    have hrow := row_of (f := decT) (tr := decTree) (fun _ => rfl) dec_tail_rows rfl hf
    rw [full_nat decResolve_nat, fullT, hf]
    simp only [decTailOK] at hrow
    simp only
    cases hz : takeNZ l with
    | nil => rw [hz] at hrow; simp at hrow
    | cons h t =>
      rw [hz] at hrow
      simp only [Bool.and_eq_true] at hrow
      obtain ⟨h1, h2, h3⟩ := hrow
      have gh : gcbResolve (Int.ofNat h) = gcbT h := gcbResolve_nat h
      refine ⟨Int.ofNat h, t.map Int.ofNat, rfl, ?_, ?_, ?_, ?_, ?_, ?_⟩
      · rw [gcbResolve_nat]; revert h1; cases gcbT n <;> cases gcbT h <;> decide
      · rw [gcbResolve_nat, gh]; revert h1; cases gcbT n <;> cases gcbT h <;> decide
      · rw [gcbResolve_nat, gh]; revert h1; cases gcbT n <;> cases gcbT h <;> decide
      · rw [gcbResolve_nat, gh]; revert h1; cases gcbT n <;> cases gcbT h <;> decide
      · intro x hx
        obtain ⟨y, hy, rfl⟩ := List.mem_map.mp hx
        have := List.all_eq_true.mp h2 y hy
        have gy : gcbResolve (Int.ofNat y) = gcbT y := gcbResolve_nat y
        rw [gy]; revert this; cases gcbT y <;> simp [isMark]
      · intro x hx
        rw [← List.map_cons (f := Int.ofNat)] at hx
        obtain ⟨y, hy, rfl⟩ := List.mem_map.mp hx
        have := List.all_eq_true.mp h3 y hy
        simp only [Bool.and_eq_true, Bool.not_eq_true'] at this
        have n1 : y ≠ 0xF77 := by rintro rfl; exact absurd this.1 (by decide)
        have n2 : y ≠ 0xF79 := by rintro rfl; exact absurd this.2 (by decide)
        simp only [Int.ofNat_eq_natCast]
        omega

/-- Only one codepoint has combining class 129. -/
noncomputable def ccc129OK : List Nat → Bool
  | [k, v] => !(Nat.beq v 129) || Nat.beq k 0xF71
  | _ => false

set_option maxRecDepth 100000 in
theorem ccc129_rows : cccTree.all ccc129OK = true := by decide +kernel

theorem kdec_tibetan : fullK 0xF77 = [0xFB2, 0xF71, 0xF80] ∧ fullK 0xF79 = [0xFB3, 0xF71, 0xF80] ∧
    fullD 0xF77 = [0xF77] ∧ fullD 0xF79 = [0xF79] ∧ cccResolve 0xFB2 = 0 ∧ cccResolve 0xFB3 = 0 ∧
    cccResolve 0xF71 = 129 ∧ cccResolve 0xF80 = 130 ∧ cccResolve 0xF77 = 0 ∧ cccResolve 0xF79 = 0 ∧
    gcbResolve 0xF77 = .EXTEND ∧ gcbResolve 0xF79 = .EXTEND := by
  decide +kernel

/-- Starters without canonical mapping whose compatibility mapping contains non-starters. -/
theorem kdec_special {c : Int} (hd : decResolve c = none) :
    (cccResolve c ≠ 0 → fullK c = [c]) ∧
    (cccResolve c = 0 → (∀ x ∈ fullK c, cccResolve x = 0) ∨ gcbResolve c = .OTHER ∨ c = 0xF77 ∨ c = 0xF79) := by
  cases hk : kdecResolve c with
  | none =>
    rw [factsK.none_ hk]
    refine ⟨fun _ => rfl, fun h => .inl ?_⟩
    intro x hx; simp at hx; rw [hx]; exact h
  | some m =>
    obtain ⟨n, rfl⟩ : ∃ n : Nat, c = n := by
      by_cases h : c < 0
      · rw [kdecResolve_neg c h] at hk; simp at hk
      · exact ⟨c.toNat, by omega⟩
    rw [kdecResolve_nat] at hk
    cases hf : kdecT n with
    | none => rw [hf] at hk; simp at hk
    | some l =>
      have hrow := row_of (f := kdecT) (tr := kdecTree) (fun _ => rfl) kdec_special_rows rfl hf
      simp only [kdecSpecialOK, Bool.or_eq_true, Bool.and_eq_true, Nat.beq_eq] at hrow
      have hdn : decT n = none := by
        rw [decResolve_nat] at hd; cases h : decT n <;> simp_all
      rw [hdn] at hrow
      have h0 : cccResolve (n : Int) = 0 := by
        rcases hrow with h | h
        · simp at h
        · rw [cccResolve_nat, h.1]; rfl
      refine ⟨fun h => absurd h0 h, fun _ => ?_⟩
      rcases hrow with h | ⟨_, h | h | h | h⟩
      · simp at h
      · left
        rw [full_nat kdecResolve_nat, fullT, hf]
        intro x hx
        obtain ⟨y, hy, rfl⟩ := List.mem_map.mp hx
        have := List.all_eq_true.mp h y hy
        simp only [Nat.beq_eq] at this
        have cy : cccResolve (Int.ofNat y) = cccT y := cccResolve_nat y
        rw [cy, this]; rfl
      · right; left
        rw [gcbResolve_nat]; revert h; cases gcbT n <;> simp
      · right; right; left; omega
      · right; right; right; omega

end U5e
