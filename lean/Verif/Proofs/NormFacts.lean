import Verif.Proofs.TableChecks
/-! Consequences of the row checks for all integers. -/
namespace U5e
open Data Spec

/-- Canonical decomposition of one codepoint. -/
notation "fullD" => U5e.Spec.full decResolve
/-- Compatibility decomposition of one codepoint. -/
notation "fullK" => U5e.Spec.full kdecResolve

theorem mem_takeNZ {x : Nat} {m : List Nat} (h : x ∈ takeNZ m) : x ∈ m ∧ x ≠ 0 := by
  induction m with
  | nil => simp [takeNZ] at h
  | cons y m ih =>
    rw [takeNZ] at h
    cases y with
    | zero => simp at h
    | succ n =>
      have : (Nat.beq (n + 1) 0) = false := rfl
      rw [this] at h
      rcases List.mem_cons.mp h with rfl | h
      · simp
      · have := ih h; simp [this]

/-- What the row checks give for one table. -/
structure DecFacts (map : Int → Option (List Int)) : Prop where
  neg : ∀ c : Int, c < 0 → map c = none
  /-- the decomposition of a codepoint with a mapping -/
  some_ : ∀ c m, map c = some m → ∃ h t, full map c = h :: t ∧ headOK (gcbResolve c) (gcbResolve h) = true ∧
    (∀ x ∈ h :: t, 0 < x ∧ map x = none ∧ decResolve x = none ∧ gcbResolve x ≠ .E_MODIFIER) ∧
    CccSorted cccResolve (h :: t)

theorem facts_of_rows {map : Int → Option (List Int)} {f : Nat → Option (List Nat)} {tr : Tree (List Nat)}
    (hn : ∀ c : Nat, map c = (f c).map (·.map Int.ofNat)) (hneg : ∀ c : Int, c < 0 → map c = none)
    (hf : ∀ c, f c = (tr.find (cmpN c)).map List.tail) (hrows : tr.all (decRowOK f) = true) :
    DecFacts map where
  neg := hneg
  some_ := by
    intro c m hm
    obtain ⟨n, rfl⟩ : ∃ n : Nat, c = n := by
      by_cases h : c < 0
      · rw [hneg c h] at hm; simp at hm
      · exact ⟨c.toNat, by omega⟩
    rw [full_nat hn, fullT]
    have hm' := hm
    rw [hn] at hm'
    cases hfn : f n with
    | none => rw [hfn] at hm'; simp at hm'
    | some l =>
      have hfn' := hfn
      rw [hf] at hfn'
      cases hfind : tr.find (cmpN n) with
      | none => rw [hfind] at hfn'; simp at hfn'
      | some row =>
        rw [hfind] at hfn'
        simp only [Option.map_some, Option.some.injEq] at hfn'
        obtain ⟨hmem, hcmp⟩ := Tree.find_some hfind
        have hrow := (Tree.all_iff _ _).mp hrows row hmem
        cases row with
        | nil => simp [decRowOK] at hrow
        | cons k m' =>
          have hk : n = k := by
            have := cmpRow_eq.mp ((cmpN_eq n (k :: m')) ▸ hcmp)
            simp [key0] at this; omega
          subst hk
          simp only [List.tail_cons] at hfn'
          subst hfn'
          simp only [decRowOK] at hrow
          have hsub : ∀ x ∈ takeNZ m', x ≠ 0 := fun x hx => (mem_takeNZ hx).2
          simp only
          cases hz : takeNZ m' with
          | nil => rw [hz] at hrow; simp at hrow
          | cons h t =>
            rw [hz] at hrow hsub
            simp only [Bool.and_eq_true] at hrow
            obtain ⟨h1, h2, h3⟩ := hrow
            refine ⟨Int.ofNat h, t.map Int.ofNat, rfl, ?_, ?_, ?_⟩
            · have : gcbResolve (Int.ofNat h) = gcbT h := gcbResolve_nat h
              rw [this, gcbResolve_nat]; exact h1
            · intro x hx
              rw [← List.map_cons (f := Int.ofNat)] at hx
              obtain ⟨y, hy, rfl⟩ := List.mem_map.mp hx
              have := List.all_eq_true.mp h2 y hy
              simp only [Bool.and_eq_true, Option.isNone_iff_eq_none, Bool.not_eq_true'] at this
              have hg : gcbResolve (Int.ofNat y) = gcbT y := gcbResolve_nat y
              have hd : decResolve (Int.ofNat y) = _ := decResolve_nat y
              have hm2 : map (Int.ofNat y) = _ := hn y
              refine ⟨?_, ?_, ?_, ?_⟩
              · have := hsub y hy; simp; omega
              · rw [hm2, this.1]; rfl
              · rw [hd, this.2.1]; rfl
              · rw [hg]; intro he; rw [he] at this; exact absurd this.2.2 (by decide)
            · have := chainB_pairwise (r := fun a b => Nat.ble (cccT a) (cccT b))
                (by intro a b c; simp only [Nat.ble_eq]; omega) _ h3
              rw [← List.map_cons (f := Int.ofNat), CccSorted, List.pairwise_map]
              refine this.imp ?_
              intro a b hab
              have ha : cccResolve (Int.ofNat a) = cccT a := cccResolve_nat a
              have hb : cccResolve (Int.ofNat b) = cccT b := cccResolve_nat b
              rw [ha, hb]
              simp only [Nat.ble_eq] at hab; omega

theorem factsD : DecFacts decResolve :=
  facts_of_rows decResolve_nat decResolve_neg (fun _ => rfl) dec_rows
theorem factsK : DecFacts kdecResolve :=
  facts_of_rows kdecResolve_nat kdecResolve_neg (fun _ => rfl) kdec_rows

namespace DecFacts
variable {map : Int → Option (List Int)} (F : DecFacts map)
include F

set_option linter.unusedSectionVars false in
theorem none_ {c : Int} (h : map c = none) : full map c = [c] := by rw [full, h]

theorem elem {c x : Int} (hx : x ∈ full map c) : map x = none := by
  cases hm : map c with
  | none => rw [F.none_ hm] at hx; simp at hx; rw [hx, hm]
  | some m =>
    obtain ⟨h, t, he, _, hall, _⟩ := F.some_ c m hm
    rw [he] at hx; exact (hall x hx).2.1

theorem elem_full {c x : Int} (hx : x ∈ full map c) : full map x = [x] := F.none_ (F.elem hx)

theorem ne_nil (c : Int) : full map c ≠ [] := by
  cases hm : map c with
  | none => rw [F.none_ hm]; simp
  | some m => obtain ⟨h, t, he, _⟩ := F.some_ c m hm; rw [he]; simp

theorem sorted (c : Int) : CccSorted cccResolve (full map c) := by
  cases hm : map c with
  | none => rw [F.none_ hm]; simp [CccSorted]
  | some m => obtain ⟨h, t, he, _, _, hs⟩ := F.some_ c m hm; rw [he]; exact hs

theorem head {c : Int} {h : Int} {t : List Int} (he : full map c = h :: t) :
    h = c ∧ t = [] ∨ headOK (gcbResolve c) (gcbResolve h) = true := by
  cases hm : map c with
  | none => rw [F.none_ hm] at he; simp at he; exact .inl ⟨he.1.symm, he.2⟩
  | some m =>
    obtain ⟨h', t', he', hok, _⟩ := F.some_ c m hm
    rw [he] at he'; cases he'; exact .inr hok

theorem ctl {c : Int} (h : isCtl (gcbResolve c) = true) : full map c = [c] := by
  cases hm : map c with
  | none => exact F.none_ hm
  | some m =>
    obtain ⟨h', t', he', hok, _⟩ := F.some_ c m hm
    revert hok h; cases gcbResolve c <;> simp [isCtl, headOK]

theorem emod {c x : Int} (hx : x ∈ full map c) (h : gcbResolve c ≠ .E_MODIFIER) :
    gcbResolve x ≠ .E_MODIFIER := by
  cases hm : map c with
  | none => rw [F.none_ hm] at hx; simp at hx; rw [hx]; exact h
  | some m =>
    obtain ⟨h', t', he', _, hall, _⟩ := F.some_ c m hm
    rw [he'] at hx; exact (hall x hx).2.2.2

theorem decompose_decompose (l : List Int) : decompose map (decompose map l) = decompose map l := by
  induction l with
  | nil => rfl
  | cons c l ih =>
    have h1 : decompose map (c :: l) = full map c ++ decompose map l := rfl
    have h2 : ∀ a b, decompose map (a ++ b) = decompose map a ++ decompose map b := by
      intro a b; exact List.flatMap_append
    rw [h1, h2, ih]
    congr 1
    have : ∀ l : List Int, (∀ x ∈ l, full map x = [x]) → decompose map l = l := by
      intro l
      induction l with
      | nil => intro _; rfl
      | cons y l ih2 =>
        intro hl
        show full map y ++ decompose map l = _
        rw [hl y (by simp), ih2 (fun x hx => hl x (by simp [hx]))]; rfl
    exact this _ (fun x hx => F.elem_full hx)

end DecFacts

theorem decompose_append (map) (a b : List Int) :
    decompose map (a ++ b) = decompose map a ++ decompose map b := List.flatMap_append
theorem decompose_cons (map) (c : Int) (l : List Int) :
    decompose map (c :: l) = full map c ++ decompose map l := rfl
theorem decompose_nil (map) : decompose map [] = [] := rfl

theorem decompose_id {map} {l : List Int} (h : ∀ x ∈ l, full map x = [x]) : decompose map l = l := by
  induction l with
  | nil => rfl
  | cons y l ih =>
    rw [decompose_cons, h y (by simp), ih (fun x hx => h x (by simp [hx]))]; rfl

theorem eqRow_map {a b : List Nat} (h : eqRow a b = true) : a.map Int.ofNat = b.map Int.ofNat := by
  rw [eqRow_iff h]

/-- The compatibility decomposition is that of the canonical decomposition. -/
theorem fullK_fullD (c : Int) : fullK c = decompose kdecResolve (fullD c) := by
  by_cases hneg : c < 0
  · rw [full_neg decResolve_neg c hneg, decompose_cons, decompose_nil, List.append_nil]
  · obtain ⟨n, rfl⟩ : ∃ n : Nat, c = n := ⟨c.toNat, by omega⟩
    cases hd : decT n with
    | none =>
      have : decResolve (n : Int) = none := by rw [decResolve_nat, hd]; rfl
      rw [factsD.none_ this, decompose_cons, decompose_nil, List.append_nil]
    | some m =>
      have hd' := hd
      rw [decT] at hd'
      cases hfind : decTree.find (cmpN n) with
      | none => rw [hfind] at hd'; simp at hd'
      | some row =>
        rw [hfind] at hd'
        simp only [Option.map_some, Option.some.injEq] at hd'
        obtain ⟨hmem, hcmp⟩ := Tree.find_some hfind
        have hrow := (Tree.all_iff _ _).mp dec_kdec_rows row hmem
        cases row with
        | nil => simp [kdecOfDec] at hrow
        | cons k m' =>
          have hk : n = k := by
            have := cmpRow_eq.mp ((cmpN_eq n (k :: m')) ▸ hcmp)
            simp [key0] at this; omega
          subst hk
          simp only [List.tail_cons] at hd'
          subst hd'
          rw [kdecOfDec] at hrow
          rw [full_nat kdecResolve_nat, eqRow_map hrow, full_nat decResolve_nat, fullT, hd]
          simp only [decompose]
          generalize takeNZ m' = l
          induction l with
          | nil => rfl
          | cons x l ih =>
            rw [List.flatMap_cons, List.map_append, List.map_cons, List.flatMap_cons, ih]
            congr 1
            exact (full_nat kdecResolve_nat x).symm

/-- Codepoints in a compatibility decomposition have no canonical mapping. -/
theorem elemK_dec {c x : Int} (hx : x ∈ fullK c) : decResolve x = none := by
  cases hm : kdecResolve c with
  | none =>
    rw [factsK.none_ hm] at hx; simp at hx; subst hx
    -- no compatibility mapping: the canonical decomposition is trivial too
    have h := fullK_fullD x
    cases hd : decResolve x with
    | none => rfl
    | some m =>
      obtain ⟨h', t', he', _, hall, _⟩ := factsD.some_ x m hd
      exfalso
      rw [factsK.none_ hm, he', decompose_cons] at h
      have hne := factsK.ne_nil h'
      cases hf : full kdecResolve h' with
      | nil => exact hne hf
      | cons a l =>
        rw [hf] at h
        simp only [List.cons_append, List.cons.injEq] at h
        obtain ⟨rfl, h2⟩ := h
        -- full h' starts with x; h' ≠ x since x has a mapping
        have hxx : kdecResolve h' = none ∨ kdecResolve h' ≠ none := by
          cases kdecResolve h' <;> simp
        rcases hxx with hn | hn
        · rw [factsK.none_ hn] at hf
          simp at hf
          have := (hall h' (by simp)).2.2.1
          rw [hf.1, hd] at this; simp at this
        · cases hk : kdecResolve h' with
          | none => exact hn hk
          | some mm =>
            obtain ⟨h3, t3, he3, _, hall3, _⟩ := factsK.some_ h' mm hk
            rw [hf] at he3; cases he3
            have := (hall3 x (by simp)).2.2.1
            rw [hd] at this; simp at this
  | some m =>
    obtain ⟨h, t, he, _, hall, _⟩ := factsK.some_ c m hm
    rw [he] at hx; exact (hall x hx).2.2.1

theorem elemK_fullD {c x : Int} (hx : x ∈ fullK c) : fullD x = [x] := factsD.none_ (elemK_dec hx)

theorem ccc_nonneg (c : Int) : 0 ≤ cccResolve c := by
  by_cases h : c < 0
  · rw [cccResolve_neg c h]; omega
  · obtain ⟨n, rfl⟩ : ∃ n : Nat, c = n := ⟨c.toNat, by omega⟩
    rw [cccResolve_nat]; omega

/-- Non-starters are Extend or SpacingMark. -/
theorem ccc_gcb {c : Int} (h : cccResolve c ≠ 0) :
    gcbResolve c = .EXTEND ∨ gcbResolve c = .SPACINGMARK := by
  by_cases hneg : c < 0
  · exact absurd (cccResolve_neg c hneg) h
  · obtain ⟨n, rfl⟩ : ∃ n : Nat, c = n := ⟨c.toNat, by omega⟩
    rw [cccResolve_nat, cccT] at h
    cases hfind : cccTree.find (cmpN n) with
    | none => rw [hfind] at h; simp at h
    | some row =>
      obtain ⟨hmem, hcmp⟩ := Tree.find_some hfind
      have hrow := (Tree.all_iff _ _).mp ccc_rows row hmem
      match row, hrow with
      | [k, v], hrow =>
        have hk : n = k := by
          have := cmpRow_eq.mp ((cmpN_eq n [k, v]) ▸ hcmp)
          simp [key0] at this; omega
        subst hk
        rw [gcbResolve_nat]
        simp only [cccRowOK, Bool.and_eq_true] at hrow
        have := hrow.2.2
        revert this
        cases gcbT n <;> simp

theorem ctl_ccc {c : Int} (h : isCtl (gcbResolve c) = true) : cccResolve c = 0 := by
  by_cases h0 : cccResolve c = 0
  · exact h0
  · rcases ccc_gcb h0 with h1 | h1 <;> rw [h1] at h <;> simp [isCtl] at h

/-- Extend or SpacingMark. -/
def isMark (v : GCB) : Bool := match v with
  | .EXTEND | .SPACINGMARK => true
  | _ => false
/-- Other, Extend or SpacingMark. -/
def isOES (v : GCB) : Bool := match v with
  | .OTHER | .EXTEND | .SPACINGMARK => true
  | _ => false

theorem compResolve_neg (a b : Int) (h : a < 0 ∨ b < 0) : compResolve a b = none := by
  cases hc : compResolve a b with
  | none => rfl
  | some c => obtain ⟨i, j, k, rfl, rfl, _⟩ := (C27_comp_iff a b c).mp hc; omega

structure CompFacts (a b c : Int) : Prop where
  full : fullD c = fullD a ++ fullD b
  gcb2 : isMark (gcbResolve b) = true
  gcb1 : isOES (gcbResolve a) = true
  gcb3 : isOES (gcbResolve c) = true
  ccc1 : cccResolve a = 0
  ccc3 : cccResolve c = 0
  dec2 : decResolve b = none
  kdec2 : kdecResolve b = none
  dec3 : decResolve c ≠ none
  pos3 : 0 < c

theorem comp_facts {a b c : Int} (h : compResolve a b = some c) : CompFacts a b c := by
  obtain ⟨i, j, k, rfl, rfl, rfl, hm⟩ := (C27_comp_iff a b c).mp h
  rw [← compTree_toList] at hm
  have hrow := (Tree.all_iff _ _).mp comp_rows _ hm
  simp only [compRowOK, Bool.and_eq_true, Nat.beq_eq, Option.isNone_iff_eq_none, Nat.blt_eq] at hrow
  obtain ⟨h1, h2, h3, h4, h5, h6, h7, h8, h9, h10⟩ := hrow
  constructor
  · rw [full_nat decResolve_nat, full_nat decResolve_nat, full_nat decResolve_nat, eqRow_map h1,
      List.map_append]
  · rw [gcbResolve_nat]; revert h2; cases gcbT j <;> simp [isMark]
  · rw [gcbResolve_nat]; revert h3; cases gcbT i <;> simp [isOES]
  · rw [gcbResolve_nat]; revert h4; cases gcbT k <;> simp [isOES]
  · rw [cccResolve_nat, h5]; rfl
  · rw [cccResolve_nat, h6]; rfl
  · rw [decResolve_nat, h7]; rfl
  · rw [kdecResolve_nat, h8]; rfl
  · rw [decResolve_nat]; cases hd : decT k <;> simp_all
  · omega

/-- The result of a composition is never the second of another. -/
theorem comp_result_not_second {a b c : Int} (h : compResolve a b = some c) (x : Int) :
    compResolve x c = none := by
  cases hx : compResolve x c with
  | none => rfl
  | some d => exact absurd (comp_facts hx).dec2 (comp_facts h).dec3

/-- Compatibility decomposition of a composite. -/
theorem comp_fullK {a b c : Int} (h : compResolve a b = some c) : fullK c = fullK a ++ fullK b := by
  rw [fullK_fullD, (comp_facts h).full, decompose_append, ← fullK_fullD, ← fullK_fullD]

end U5e
