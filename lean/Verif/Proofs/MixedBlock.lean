import Verif.Proofs.Mixed
/-! Compatibility decomposition after canonical ordering: one grapheme. -/
namespace U5e
open Spec

/-- The codepoints of class `k` in the compatibility decomposition of a codepoint. -/
def fk (k e : Int) : List Int := (fullK e).filter (fun y => cccResolve y == k)

/-- ... of a list. -/
def ak (k : Int) (l : List Int) : List Int := l.flatMap (fk k)

theorem ak_eq (k : Int) (l : List Int) :
    (decompose kdecResolve l).filter (fun y => cccResolve y == k) = ak k l := by
  rw [decompose, ak, List.filter_flatMap]; rfl

/-- The starters of a list. -/
abbrev sts (l : List Int) : List Int := l.filter (fun y => cccResolve y == 0)

theorem ak_cons (k a : Int) (l : List Int) : ak k (a :: l) = fk k a ++ ak k l := rfl
theorem ak_append (k : Int) (l m : List Int) : ak k (l ++ m) = ak k l ++ ak k m := List.flatMap_append

theorem fk_mem {k e w : Int} (h : w ∈ fk k e) : w ∈ fullK e ∧ cccResolve w = k := by
  have := List.mem_filter.mp h
  exact ⟨this.1, by simpa using this.2⟩

/-- Codepoints that are their own canonical decomposition. -/
abbrev Atomic (l : List Int) : Prop := ∀ x ∈ l, decResolve x = none

theorem fk_nonstarter {k n : Int} (hd : decResolve n = none) (hn : cccResolve n ≠ 0) :
    fk k n = if cccResolve n = k then [n] else [] := by
  rw [fk, (kdec_special hd).1 hn]
  by_cases h : cccResolve n = k <;> simp [h]

theorem ak_zero {l : List Int} (h : Atomic l) : ak 0 l = ak 0 (sts l) := by
  induction l with
  | nil => rfl
  | cons a l ih =>
    have ih := ih fun x hx => h x (by simp [hx])
    by_cases ha : cccResolve a = 0
    · rw [sts, List.filter_cons_of_pos (by simpa using ha), ak_cons, ak_cons, ih]
    · rw [sts, List.filter_cons_of_neg (by simpa using ha), ak_cons, fk_nonstarter (h a (by simp)) ha,
        if_neg ha, ih]; rfl

/-- What starters contribute to class `k` equals every earlier non-starter of that class. -/
def Cond (k : Int) (l : List Int) : Prop :=
  ∀ p e q, l = p ++ e :: q → cccResolve e = 0 → ∀ n ∈ p, cccResolve n = k → ∀ w ∈ fk k e, w = n

theorem Cond.tail {k a : Int} {l : List Int} (h : Cond k (a :: l)) : Cond k l := by
  intro p e q he h0 n hn hk w hw
  exact h (a :: p) e q (by simp [he]) h0 n (by simp [hn]) hk w hw

theorem all_eq_append {n : Int} {s t : List Int} (h : ∀ w ∈ s, w = n) : s ++ n :: t = n :: (s ++ t) := by
  induction s with
  | nil => rfl
  | cons a s ih =>
    have := h a (by simp); subst this
    rw [List.cons_append, ih fun w hw => h w (by simp [hw])]; rfl

theorem ak_cond {k : Int} (hk : k ≠ 0) {l : List Int} (hat : Atomic l) (h : Cond k l) :
    ak k l = ak k (sts l) ++ l.filter (fun y => cccResolve y == k) := by
  induction l with
  | nil => rfl
  | cons a l ih =>
    have ih := ih (fun x hx => hat x (by simp [hx])) h.tail
    by_cases ha : cccResolve a = 0
    · rw [sts, List.filter_cons_of_pos (by simpa using ha), ak_cons, ak_cons, ih,
        List.filter_cons_of_neg (by simp only [beq_iff_eq]; omega), List.append_assoc]
    · rw [sts, List.filter_cons_of_neg (by simpa using ha), ak_cons, fk_nonstarter (hat a (by simp)) ha]
      by_cases hc : cccResolve a = k
      · rw [if_pos hc, List.filter_cons_of_pos (by simpa using hc), ih, all_eq_append]
        · rfl
        · intro w hw
          obtain ⟨e, he, hwe⟩ := List.mem_flatMap.mp hw
          obtain ⟨he, h0⟩ := List.mem_filter.mp he
          obtain ⟨p, q, hpq⟩ := List.append_of_mem he
          exact h (a :: p) e q (by rw [hpq]; rfl) (by simpa using h0) a (by simp) hc w hwe
      · rw [if_neg hc, List.filter_cons_of_neg (by simpa using hc), ih]; rfl

theorem cond_sorted {k : Int} (hk : k ≠ 0) {l : List Int} (h : CccSorted cccResolve l) : Cond k l := by
  intro p e q he h0 n hn hc
  rw [he, CccSorted, List.pairwise_append] at h
  have := h.2.2 n hn e (by simp)
  have := ccc_nonneg n
  omega

/-- U+0F77 and U+0F79. -/
abbrev Tib (s : Int) : Prop := s = 0xF77 ∨ s = 0xF79

/-- A vowel sign of class 130 other than U+0F80 before U+0F77 or U+0F79. -/
def TibTrap (u : List Int) : Prop :=
  ∃ p s q n, u = p ++ s :: q ∧ Tib s ∧ n ∈ p ∧ cccResolve n = 130 ∧ n ≠ 0xF80

theorem ccc129 {c : Int} (h : cccResolve c = 129) : c = 0xF71 := by
  by_cases hneg : c < 0
  · rw [cccResolve_neg c hneg] at h; omega
  · obtain ⟨n, rfl⟩ : ∃ n : Nat, c = n := ⟨c.toNat, by omega⟩
    rw [cccResolve_nat, cccT] at h
    cases hfind : Data.cccTree.find (cmpN n) with
    | none => rw [hfind] at h; simp at h
    | some row =>
      rw [hfind] at h
      obtain ⟨hmem, hcmp⟩ := Tree.find_some hfind
      have hrow := (Tree.all_iff _ _).mp ccc129_rows row hmem
      match row, hrow with
      | [k, v], hrow =>
        have hk : n = k := by
          have := cmpRow_eq.mp ((cmpN_eq n [k, v]) ▸ hcmp)
          simp [key0] at this; omega
        subst hk
        simp only [ccc129OK, Bool.or_eq_true, Bool.not_eq_true', Nat.beq_eq] at hrow
        rcases hrow with hrow | hrow
        · exfalso
          simp at h
          have : v = 129 := by omega
          subst this
          exact absurd hrow (by decide)
        · omega

/-- Before a codepoint of class Other in the decomposition of a grapheme there are only starters. -/
def OtherFirst (u : List Int) : Prop :=
  ∀ p e q, u = p ++ e :: q → gcbResolve e = .OTHER → ∀ x ∈ p, cccResolve x = 0

theorem fk_tib {k s : Int} (h : Tib s) :
    fk k s = (if k = 129 then [0xF71] else if k = 130 then [0xF80] else []) ∨ k = 0 := by
  obtain ⟨h1, h2, _, _, h5, h6, h7, h8, _⟩ := kdec_tibetan
  by_cases h0 : k = 0
  · exact .inr h0
  · left
    rw [fk]
    rcases h with rfl | rfl
    · rw [h1]
      by_cases a : k = 129
      · subst a; simp [List.filter, h5, h7, h8]
      · by_cases b : k = 130
        · subst b; simp [List.filter, h5, h7, h8]
        · have e1 : (0 : Int) ≠ k := fun e => h0 e.symm
          have e2 : (129 : Int) ≠ k := fun e => a e.symm
          have e3 : (130 : Int) ≠ k := fun e => b e.symm
          simp [List.filter, h5, h7, h8, a, b, beq_eq_false_iff_ne.mpr e1, beq_eq_false_iff_ne.mpr e2, beq_eq_false_iff_ne.mpr e3]
    · rw [h2]
      by_cases a : k = 129
      · subst a; simp [List.filter, h6, h7, h8]
      · by_cases b : k = 130
        · subst b; simp [List.filter, h6, h7, h8]
        · have e1 : (0 : Int) ≠ k := fun e => h0 e.symm
          have e2 : (129 : Int) ≠ k := fun e => a e.symm
          have e3 : (130 : Int) ≠ k := fun e => b e.symm
          simp [List.filter, h6, h7, h8, a, b, beq_eq_false_iff_ne.mpr e1, beq_eq_false_iff_ne.mpr e2, beq_eq_false_iff_ne.mpr e3]

theorem cond_of_noTrap {u : List Int} (hat : Atomic u) (ho : OtherFirst u) (hn : ¬ TibTrap u) {k : Int}
    (hk : k ≠ 0) : Cond k u := by
  intro p e q he h0 n hn' hc w hw
  rcases (kdec_special (hat e (by rw [he]; simp))).2 h0 with h1 | h1 | h1
  · have := fk_mem hw
    have := h1 w this.1
    omega
  · have := ho p e q he h1 n hn'; omega
  · rcases fk_tib (k := k) h1 with h2 | h2
    · rw [h2] at hw
      split at hw
      · next h3 => simp at hw; rw [hw, ccc129 (hc.trans h3)]
      · split at hw
        · next h3 =>
          simp at hw
          by_cases h4 : n = 0xF80
          · rw [hw, h4]
          · exact absurd ⟨p, e, q, n, he, h1, hn', hc.trans h3, h4⟩ hn
        · simp at hw
    · exact absurd h2 hk

/-- The ordered compatibility decomposition is not changed by canonical ordering first. -/
theorem reorder_of_noTrap {sort : SortFn} (hs : StableSort sort) {u : List Int} (hat : Atomic u)
    (ho : OtherFirst u) (hn : ¬ TibTrap u) :
    sort canonicalCombiningOrder (decompose kdecResolve (sort canonicalCombiningOrder u)) =
      sort canonicalCombiningOrder (decompose kdecResolve u) := by
  refine sorted_ext cccResolve (hs.1.sorted _) (hs.1.sorted _) fun k => ?_
  rw [stable_filter hs, stable_filter hs, ak_eq, ak_eq]
  have hat' : Atomic (sort canonicalCombiningOrder u) := fun x hx => hat x ((hs.1.perm _).mem_iff.mp hx)
  by_cases hk : k = 0
  · subst hk
    rw [ak_zero hat, ak_zero hat', sts, stable_filter hs]
  · rw [ak_cond hk hat (cond_of_noTrap hat ho hn hk), ak_cond hk hat' (cond_sorted hk (hs.1.sorted _)),
      sts, stable_filter hs, stable_filter hs]

theorem exists_last {α : Type} {P : α → Prop} {l : List α} (h : ∃ x ∈ l, P x) :
    ∃ p x q, l = p ++ x :: q ∧ P x ∧ ∀ y ∈ q, ¬ P y := by
  induction l with
  | nil => simp at h
  | cons a l ih =>
    by_cases h' : ∃ x ∈ l, P x
    · obtain ⟨p, x, q, rfl, h1, h2⟩ := ih h'
      exact ⟨a :: p, x, q, rfl, h1, h2⟩
    · obtain ⟨x, hx, hP⟩ := h
      rcases List.mem_cons.mp hx with rfl | hx
      · exact ⟨[], x, l, rfl, hP, fun y hy hp => h' ⟨y, hy, hp⟩⟩
      · exact absurd ⟨x, hx, hP⟩ h'

/-- Lists over a letter `f`: a `g` after `j` letters `f`, from the end. -/
theorem tail_ne {f g : Int} (hfg : f ≠ g) {x y : List Int} {a b : List Int} (ha : ∀ w ∈ a, w = f)
    (hlen : b.length < a.length) : x ++ a ≠ y ++ g :: b := by
  intro h
  have h1 := congrArg (fun l => l.reverse[b.length]?) h
  simp only [List.reverse_append, List.reverse_cons, List.append_assoc] at h1
  rw [List.getElem?_append_left (by simpa using hlen), List.getElem?_append_right (by simp)] at h1
  simp only [List.length_reverse, Nat.sub_self, List.cons_append, List.nil_append, List.getElem?_cons_zero] at h1
  have := List.mem_of_getElem? h1
  rw [List.mem_reverse] at this
  exact hfg (ha g this).symm

theorem noTrap_of_reorder {sort : SortFn} (hs : StableSort sort) {u : List Int} (hat : Atomic u)
    (ho : OtherFirst u)
    (h : sort canonicalCombiningOrder (decompose kdecResolve (sort canonicalCombiningOrder u)) =
      sort canonicalCombiningOrder (decompose kdecResolve u)) : ¬ TibTrap u := by
  rintro ⟨p0, s0, q0, n0, hu0, hs0, hn0, hc0, hne0⟩
  -- the last U+0F77/U+0F79
  obtain ⟨p, s, q, hu, hts, hq⟩ := exists_last (P := Tib) (l := u) ⟨s0, by rw [hu0]; simp, hs0⟩
  have hnp : n0 ∈ p := by
    rcases List.append_eq_append_iff.mp (hu0.symm.trans hu) with ⟨a, h1, h2⟩ | ⟨a, h1, h2⟩
    · rw [h1]; simp [hn0]
    · cases a with
      | nil => simp at h1; rw [← h1]; exact hn0
      | cons b a =>
        simp at h2
        exact absurd hs0 (hq s0 (by rw [h2.2]; simp))
  obtain ⟨p1, n, p2, hp, ⟨hn1, hn2⟩, hp2⟩ :=
    exists_last (P := fun n => cccResolve n = 130 ∧ n ≠ 0xF80) (l := p) ⟨n0, hnp, hc0, hne0⟩
  -- class 130
  have hk := congrArg (fun l => l.filter (fun y => cccResolve y == (130 : Int))) h
  simp only [stable_filter hs, ak_eq] at hk
  have hat' : Atomic (sort canonicalCombiningOrder u) := fun x hx => hat x ((hs.1.perm _).mem_iff.mp hx)
  rw [ak_cond (by decide) hat' (cond_sorted (by decide) (hs.1.sorted _)), sts, stable_filter hs,
    stable_filter hs] at hk
  have hn0' : cccResolve n ≠ 0 := by omega
  -- after `n` no starter is special except U+0F77 and U+0F79
  have hsp : ∀ a e b, p2 ++ s :: q = a ++ e :: b → cccResolve e = 0 → ¬ Tib e → fk 130 e = [] := by
    intro a e b he h0 ht
    have hu' : u = (p1 ++ n :: a) ++ e :: b := by rw [hu, hp]; simp [he]
    rcases (kdec_special (hat e (by rw [hu']; simp))).2 h0 with h1 | h1 | h1
    · refine List.eq_nil_iff_forall_not_mem.mpr fun w hw => ?_
      have := fk_mem hw
      have := h1 w this.1
      omega
    · have := ho _ e b hu' h1 n (by simp)
      omega
    · exact absurd h1 ht
  have hfs : fk 130 s = [0xF80] := by
    rcases fk_tib (k := 130) hts with h1 | h1
    · simpa using h1
    · omega
  -- the part after the last special
  have hqa : ak 130 q = q.filter (fun y => cccResolve y == (130 : Int)) := by
    have hc : Cond 130 q := by
      intro a e b he h0 n' _ _ w hw
      rw [hsp (p2 ++ s :: a) e b (by simp [he]) h0 (hq e (by simp [he]))] at hw
      simp at hw
    rw [ak_cond (by decide) (fun x hx => hat x (by rw [hu]; simp [hx])) hc]
    have : ak 130 (sts q) = [] := by
      refine List.eq_nil_iff_forall_not_mem.mpr fun w hw => ?_
      obtain ⟨e, he, hwe⟩ := List.mem_flatMap.mp hw
      obtain ⟨he, h0⟩ := List.mem_filter.mp he
      obtain ⟨a, b, hab⟩ := List.append_of_mem he
      rw [hsp (p2 ++ s :: a) e b (by simp [hab]) (by simpa using h0) (hq e he)] at hwe
      simp at hwe
    rw [this]; rfl
  have hp2a : ∀ w ∈ ak 130 p2, w = 0xF80 := by
    intro w hw
    obtain ⟨e, he, hw⟩ := List.mem_flatMap.mp hw
    obtain ⟨a, b, hab⟩ := List.append_of_mem he
    by_cases h0 : cccResolve e = 0
    · by_cases ht : Tib e
      · rcases fk_tib (k := 130) ht with h1 | h1
        · rw [h1] at hw; simpa using hw
        · omega
      · rw [hsp a e (b ++ s :: q) (by simp [hab]) h0 ht] at hw; simp at hw
    · rw [fk_nonstarter (hat e (by rw [hu, hp, hab]; simp)) h0] at hw
      split at hw
      · next h1 =>
        simp at hw; subst hw
        have := hp2 w he
        by_cases h2 : w = 0xF80
        · exact h2
        · exact absurd ⟨h1, h2⟩ this
      · simp at hw
  have hlen : (p2.filter (fun y => cccResolve y == (130 : Int))).length ≤ (ak 130 p2).length := by
    have : ∀ l : List Int, Atomic l →
        (l.filter (fun y => cccResolve y == (130 : Int))).length ≤ (ak 130 l).length := by
      intro l hl
      induction l with
      | nil => simp [ak]
      | cons a l ih =>
        have ih := ih fun x hx => hl x (by simp [hx])
        rw [ak_cons, List.length_append, List.filter_cons]
        split
        · next h1 =>
          have h1 : cccResolve a = 130 := by simpa using h1
          rw [fk_nonstarter (hl a (by simp)) (by omega), if_pos h1]
          simp only [List.length_cons, List.length_nil]; omega
        · omega
    exact this p2 fun x hx => hat x (by rw [hu, hp]; simp [hx])
  have hsf : cccResolve s ≠ 130 := by
    obtain ⟨_, _, _, _, _, _, _, _, h9, h10, _⟩ := kdec_tibetan
    rcases hts with rfl | rfl <;> omega
  have e1 : ak 130 u = (ak 130 p1 ++ fk 130 n ++ (ak 130 p2 ++ [0xF80])) ++ ak 130 q := by
    rw [hu, hp, ak_append, ak_append, ak_cons, ak_cons, hfs]; simp
  have e2 : u.filter (fun y => cccResolve y == (130 : Int)) =
      p1.filter (fun y => cccResolve y == (130 : Int)) ++
        n :: p2.filter (fun y => cccResolve y == (130 : Int)) ++ ak 130 q := by
    rw [hu, hp, hqa, List.filter_append, List.filter_append, List.filter_cons_of_pos (by simpa using hn1),
      List.filter_cons_of_neg (by simpa using hsf)]
  rw [e1, e2, ← List.append_assoc, ← List.append_assoc] at hk
  have hk := List.append_cancel_right hk
  exact tail_ne (f := 0xF80) (g := n) (fun e => hn2 e.symm) (a := ak 130 p2 ++ [0xF80])
    (by intro w hw; rcases List.mem_append.mp hw with h1 | h1
        · exact hp2a w h1
        · simpa using h1)
    (by simp; omega) hk.symm

theorem reorder_iff {sort : SortFn} (hs : StableSort sort) {u : List Int} (hat : Atomic u)
    (ho : OtherFirst u) :
    sort canonicalCombiningOrder (decompose kdecResolve (sort canonicalCombiningOrder u)) =
      sort canonicalCombiningOrder (decompose kdecResolve u) ↔ ¬ TibTrap u :=
  ⟨noTrap_of_reorder hs hat ho, reorder_of_noTrap hs hat ho⟩

end U5e
