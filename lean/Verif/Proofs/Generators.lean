import Verif.Model.Generators
import Verif.Spec.Expand
/-! The substitution loop of the generators. -/
namespace U5e
open Spec

variable {d d0 : Hash Nat (List Nat)}

theorem Spec.Expands.det {d : Nat → Option (List Nat)} {xs l l' : List Nat} (h : Expands d xs l)
    (h' : Expands d xs l') : l = l' := by
  induction h generalizing l' with
  | nil => cases h'; rfl
  | keep hx _ ih =>
    cases h' with
    | keep _ h2 => rw [ih h2]
    | expand h1 _ _ => rw [hx] at h1; simp at h1
  | expand hx _ _ ih1 ih2 =>
    cases h' with
    | keep h1 _ => rw [hx] at h1; simp at h1
    | expand h1 h2 h3 =>
      rw [hx] at h1; cases h1
      rw [ih1 h2, ih2 h3]

theorem Spec.Expands.append {d : Nat → Option (List Nat)} {xs ys l1 l2 : List Nat} (h1 : Expands d xs l1)
    (h2 : Expands d ys l2) : Expands d (xs ++ ys) (l1 ++ l2) := by
  induction h1 with
  | nil => exact h2
  | keep hx _ ih => exact .keep hx ih
  | expand hx hm _ _ ih => rw [List.append_assoc]; exact .expand hx hm ih

theorem Spec.Expands.split {d : Nat → Option (List Nat)} {xs ys l : List Nat} (h : Expands d (xs ++ ys) l) :
    ∃ l1 l2, l = l1 ++ l2 ∧ Expands d xs l1 ∧ Expands d ys l2 := by
  induction xs generalizing l with
  | nil => exact ⟨[], l, rfl, .nil, h⟩
  | cons x xs ih =>
    cases h with
    | keep hx h =>
      obtain ⟨l1, l2, rfl, h1, h2⟩ := ih h
      exact ⟨x :: l1, l2, rfl, .keep hx h1, h2⟩
    | expand hx hm h =>
      obtain ⟨l1, l2, rfl, h1, h2⟩ := ih h
      exact ⟨_, l2, (List.append_assoc _ _ _).symm, .expand hx hm h1, h2⟩

theorem Spec.Expands.self {d : Nat → Option (List Nat)} {xs : List Nat} (h : ∀ x ∈ xs, d x = none) :
    Expands d xs xs := by
  induction xs with
  | nil => exact .nil
  | cons x xs ih => exact .keep (h x (by simp)) (ih fun y hy => h y (by simp [hy]))

/-- The entries of `$d{$k}` after one substitution. -/
def subst (d : Hash Nat (List Nat)) (m : List Nat) : List Nat :=
  m.flatMap (fun x => match d x with
    | some l => l
    | none => [x])

/-- The hash has the same keys as the primary mapping and the same full expansions. -/
structure Inv (d0 d : Hash Nat (List Nat)) : Prop where
  keys : ∀ k, d k = none ↔ d0 k = none
  exp : ∀ k m m0, d k = some m → d0 k = some m0 → ∀ l, Expands d0 m l ↔ Expands d0 m0 l

theorem Inv.refl (d : Hash Nat (List Nat)) : Inv d d :=
  ⟨fun _ => Iff.rfl, fun k m m0 h1 h2 l => by rw [h1] at h2; cases h2; exact Iff.rfl⟩

theorem Inv.subst_exp (h : Inv d0 d) (m l : List Nat) : Expands d0 (subst d m) l ↔ Expands d0 m l := by
  induction m generalizing l with
  | nil => exact Iff.rfl
  | cons x m ih =>
    rw [subst, List.flatMap_cons]
    constructor
    · intro hl
      obtain ⟨l1, l2, rfl, h1, h2⟩ := hl.split
      have h2 := (ih l2).mp h2
      cases hx : d x with
      | none =>
        rw [hx] at h1
        have hx0 := (h.keys x).mp hx
        cases h1 with
        | keep _ h1 => cases h1; exact .keep hx0 h2
        | expand h1 _ _ => rw [hx0] at h1; simp at h1
      | some lx =>
        rw [hx] at h1
        cases hx0 : d0 x with
        | none => rw [(h.keys x).mpr hx0] at hx; simp at hx
        | some mx => exact .expand hx0 ((h.exp x lx mx hx hx0 l1).mp h1) h2
    · intro hl
      cases hl with
      | keep hx0 h2 =>
        rw [(h.keys x).mpr hx0]
        exact .keep hx0 ((ih _).mpr h2)
      | @expand _ mx _ l1 l2 hx0 h1 h2 =>
        cases hx : d x with
        | none => rw [(h.keys x).mp hx] at hx0; simp at hx0
        | some lx => exact ((h.exp x lx mx hx hx0 l1).mpr h1).append ((ih _).mpr h2)

theorem Inv.step (h : Inv d0 d) {k : Nat} {m : List Nat} (hk : d k = some m) :
    Inv d0 (d.set k (subst d m)) where
  keys := by
    intro x
    rw [Hash.set]
    split
    · next e =>
      subst e
      rw [← h.keys x, hk]; simp
    · exact h.keys x
  exp := by
    intro x m' m0 h1 h2 l
    rw [Hash.set] at h1
    split at h1
    · next e =>
      subst e
      simp only [Option.some.injEq] at h1
      subst h1
      rw [h.subst_exp, h.exp x m m0 hk h2]
    · exact h.exp x m' m0 h1 h2 l

theorem substPass_eq (d : Hash Nat (List Nat)) (k : Nat) (ks : List Nat) (c : Bool) {m : List Nat}
    (hk : d k = some m) :
    substPass d (k :: ks) c =
      substPass (d.set k (subst d m)) ks (c || m.any (fun x => (d x).isSome)) := by
  rw [substPass, hk]
  simp only [Option.getD_some]
  congr 2
  rw [subst]
  congr 1
  funext x
  cases d x <;> rfl

theorem pass_inv (h : Inv d0 d) (ks : List Nat) (hks : ∀ k ∈ ks, d0 k ≠ none) (c : Bool) :
    Inv d0 (substPass d ks c).1 := by
  induction ks generalizing d c with
  | nil => exact h
  | cons k ks ih =>
    cases hk : d k with
    | none => exact absurd ((h.keys k).mp hk) (hks k (by simp))
    | some m =>
      rw [substPass_eq d k ks c hk]
      exact ih (h.step hk) (fun x hx => hks x (by simp [hx])) _

theorem pass_true (ks : List Nat) (d : Hash Nat (List Nat)) : (substPass d ks true).2 = true := by
  induction ks generalizing d with
  | nil => rfl
  | cons k ks ih => rw [substPass]; exact ih _

theorem subst_id {m : List Nat} (h : ∀ x ∈ m, d x = none) : subst d m = m := by
  induction m with
  | nil => rfl
  | cons x m ih =>
    rw [subst, List.flatMap_cons, h x (by simp)]
    show x :: subst d m = _
    rw [ih fun y hy => h y (by simp [hy])]

theorem set_same {k : Nat} {m : List Nat} (h : d k = some m) : d.set k m = d := by
  funext x
  rw [Hash.set]
  split
  · next e => rw [e, h]
  · rfl

/-- A round without a substitution leaves the hash alone, and nothing is left to substitute. -/
theorem pass_false {ks : List Nat} (h : Inv d0 d) (hks : ∀ k ∈ ks, d0 k ≠ none)
    (hc : (substPass d ks false).2 = false) :
    (substPass d ks false).1 = d ∧ ∀ k ∈ ks, ∀ m, d k = some m → ∀ x ∈ m, d x = none := by
  induction ks generalizing d with
  | nil => exact ⟨rfl, by simp⟩
  | cons k ks ih =>
    cases hk : d k with
    | none => exact absurd ((h.keys k).mp hk) (hks k (by simp))
    | some m =>
      rw [substPass_eq d k ks false hk] at hc ⊢
      cases ha : m.any (fun x => (d x).isSome) with
      | true => rw [ha] at hc; simp only [Bool.or_true] at hc; rw [pass_true] at hc; simp at hc
      | false =>
        rw [ha] at hc
        simp only [Bool.or_self] at hc ⊢
        have hnone : ∀ x ∈ m, d x = none := by
          intro x hx
          have := List.any_eq_false.mp ha x hx
          cases hdx : d x <;> simp_all
        rw [subst_id hnone, set_same hk] at hc ⊢
        obtain ⟨h1, h2⟩ := ih h (fun x hx => hks x (by simp [hx])) hc
        refine ⟨h1, ?_⟩
        intro k' hk' m' hm'
        rcases List.mem_cons.mp hk' with rfl | hk'
        · rw [hk] at hm'; cases hm'; exact hnone
        · exact h2 k' hk' m' hm'

/-- If the loop ends, every mapping is the full expansion. -/
theorem loop_correct (orders : Nat → List Nat) (ho : ∀ n, IsKeys d0 (orders n)) (fuel n : Nat)
    (h : Inv d0 d) {d' : Hash Nat (List Nat)} (hl : substLoop orders fuel n d = some d') :
    (∀ k, d' k = none ↔ d0 k = none) ∧ ∀ k m, d' k = some m → Expands d0 [k] m := by
  induction fuel generalizing n d with
  | zero => simp [substLoop] at hl
  | succ fuel ih =>
    have hks : ∀ k ∈ orders n, d0 k ≠ none := fun k hk => ((ho n).2 k).mp hk
    rw [substLoop] at hl
    have hinv := pass_inv h (orders n) hks false
    cases hp : substPass d (orders n) false with
    | mk d1 c =>
      rw [hp] at hl hinv
      cases c with
      | true => exact ih (n + 1) hinv hl
      | false =>
        simp at hl
        subst hl
        obtain ⟨h1, h2⟩ := pass_false h hks (by rw [hp])
        rw [hp] at h1
        simp only at h1
        subst h1
        refine ⟨h.keys, ?_⟩
        intro k m hm
        have hk0 : d0 k ≠ none := fun h0 => by rw [(h.keys k).mpr h0] at hm; simp at hm
        have hkin := ((ho n).2 k).mpr hk0
        have hnone := h2 k hkin m hm
        cases hd0 : d0 k with
        | none => exact absurd hd0 hk0
        | some m0 =>
          have := (h.exp k m m0 hm hd0 m).mp
            (Expands.self fun x hx => (h.keys x).mp (hnone x hx))
          have := Expands.expand hd0 this .nil
          rwa [List.append_nil] at this

/-! ### Termination -/

/-- Ranks of the entries of `k`'s mapping are at least `n + 1` below the rank of `k`. -/
def Below (rank : Nat → Nat) (n : Nat) (d : Hash Nat (List Nat)) (k : Nat) : Prop :=
  ∀ m, d k = some m → ∀ x ∈ m, d x ≠ none → rank x + n < rank k

theorem mem_subst {m : List Nat} {y : Nat} (h : y ∈ subst d m) :
    (y ∈ m ∧ d y = none) ∨ ∃ x l, x ∈ m ∧ d x = some l ∧ y ∈ l := by
  obtain ⟨x, hx, hy⟩ := List.mem_flatMap.mp h
  cases hd : d x with
  | none => rw [hd] at hy; simp at hy; subst hy; exact .inl ⟨hx, hd⟩
  | some l => rw [hd] at hy; exact .inr ⟨x, l, hx, hd, hy⟩

theorem pass_below {rank : Nat → Nat} {n : Nat} (ks : List Nat) (done : List Nat)
    (hall : ∀ k, Below rank n d k) (hdone : ∀ k ∈ done, Below rank (n + 1) d k) (c : Bool)
    (hks : ∀ k ∈ ks, d k ≠ none) :
    (∀ k, Below rank n (substPass d ks c).1 k) ∧
      ∀ k ∈ done ++ ks, Below rank (n + 1) (substPass d ks c).1 k := by
  induction ks generalizing d done c with
  | nil => exact ⟨hall, by simpa [substPass] using hdone⟩
  | cons k ks ih =>
    cases hk : d k with
    | none => exact absurd hk (hks k (by simp))
    | some m =>
      rw [substPass_eq d k ks c hk]
      have hnone : ∀ x, (d.set k (subst d m)) x ≠ none ↔ d x ≠ none := by
        intro x
        rw [Hash.set]
        split
        · next e => subst e; rw [hk]; simp
        · exact Iff.rfl
      have hother : ∀ n' x, x ≠ k → Below rank n' d x → Below rank n' (d.set k (subst d m)) x := by
        intro n' x hx hb m' hm' y hy hy0
        rw [Hash.set, if_neg hx] at hm'
        exact hb m' hm' y hy ((hnone y).mp hy0)
      have hk1 : Below rank (n + 1) (d.set k (subst d m)) k := by
        intro m' hm' y hy hy0
        rw [Hash.set, if_pos rfl] at hm'
        cases hm'
        have hy0 := (hnone y).mp hy0
        rcases mem_subst hy with ⟨_, h2⟩ | ⟨x, l, hx, hl, hyl⟩
        · exact absurd h2 hy0
        · have h1 := hall x l hl y hyl hy0
          have h2 := hall k m hk x hx (by rw [hl]; simp)
          omega
      have := ih (d := d.set k (subst d m)) (done ++ [k])
        (fun x => by
          by_cases hx : x = k
          · subst hx
            intro m' hm' y hy hy0
            have := hk1 m' hm' y hy hy0
            omega
          · exact hother n x hx (hall x))
        (fun x hx => by
          by_cases hxk : x = k
          · subst hxk; exact hk1
          · rcases List.mem_append.mp hx with hx | hx
            · exact hother (n + 1) x hxk (hdone x hx)
            · simp at hx; exact absurd hx hxk)
        (c || m.any (fun x => (d x).isSome)) (fun x hx => (hnone x).mpr (hks x (by simp [hx])))
      simpa using this

theorem pass_no_subst {ks : List Nat} (h : ∀ k m, d k = some m → ∀ x ∈ m, d x = none)
    (hks : ∀ k ∈ ks, d k ≠ none) : (substPass d ks false).2 = false := by
  induction ks with
  | nil => rfl
  | cons k ks ih =>
    cases hk : d k with
    | none => exact absurd hk (hks k (by simp))
    | some m =>
      have hn := h k m hk
      rw [substPass_eq d k ks false hk, subst_id hn, set_same hk]
      have : m.any (fun x => (d x).isSome) = false := by
        rw [List.any_eq_false]
        intro x hx; rw [hn x hx]; simp
      rw [this]
      exact ih fun x hx => hks x (by simp [hx])

/-- With ranks the loop ends. -/
theorem loop_terminates {rank : Nat → Nat} {R : Nat} (hR : ∀ k, d0 k ≠ none → rank k ≤ R)
    (orders : Nat → List Nat) (ho : ∀ n, IsKeys d0 (orders n)) (fuel n p : Nat) (h : Inv d0 d)
    (hb : ∀ k, Below rank p d k) (hf : R < fuel + p ∧ 0 < fuel) :
    ∃ d', substLoop orders fuel n d = some d' := by
  induction fuel generalizing n p d with
  | zero => omega
  | succ fuel ih =>
    have hks : ∀ k ∈ orders n, d0 k ≠ none := fun k hk => ((ho n).2 k).mp hk
    have hksd : ∀ k ∈ orders n, d k ≠ none := fun k hk h0 => hks k hk ((h.keys k).mp h0)
    rw [substLoop]
    have hinv := pass_inv h (orders n) hks false
    have hbelow := pass_below (orders n) [] hb (by simp) false hksd
    by_cases hlast : R ≤ p
    · -- nothing left to substitute
      have hn : ∀ k m, d k = some m → ∀ x ∈ m, d x = none := by
        intro k m hm x hx
        cases hdx : d x with
        | none => rfl
        | some l =>
          exfalso
          have := hb k m hm x hx (by rw [hdx]; simp)
          have := hR k (fun h0 => by rw [(h.keys k).mpr h0] at hm; simp at hm)
          omega
      have := pass_no_subst hn hksd
      cases hp : substPass d (orders n) false with
      | mk d1 c => rw [hp] at this; simp only at this; subst this; exact ⟨d1, rfl⟩
    · cases hp : substPass d (orders n) false with
      | mk d1 c =>
        rw [hp] at hinv hbelow
        cases c with
        | false => exact ⟨d1, rfl⟩
        | true =>
          refine ih (n + 1) (p + 1) hinv ?_ (by omega)
          intro k m hm
          have hinv : Inv d0 d1 := hinv
          have hk0 : d0 k ≠ none := fun h0 => by rw [(hinv.keys k).mpr h0] at hm; simp at hm
          exact hbelow.2 k (by simpa using ((ho n).2 k).mpr hk0) m hm

/-- With a circular mapping the loop never ends. -/
theorem loop_circular {S : Nat → Prop} (hS : ∃ k, S k)
    (hc : ∀ k, S k → ∃ m, d k = some m ∧ ∃ x ∈ m, S x)
    (orders : Nat → List Nat) (ho : ∀ n, IsKeys d0 (orders n)) (hk0 : ∀ k, d k = none ↔ d0 k = none)
    (fuel n : Nat) : substLoop orders fuel n d = none := by
  induction fuel generalizing n d with
  | zero => rfl
  | succ fuel ih =>
    have pass : ∀ (ks : List Nat) (d : Hash Nat (List Nat)) (c : Bool),
        (∀ k, S k → ∃ m, d k = some m ∧ ∃ x ∈ m, S x) → (∀ k ∈ ks, d k ≠ none) →
        (∀ k, d k = none ↔ d0 k = none) →
        (∀ k, S k → ∃ m, (substPass d ks c).1 k = some m ∧ ∃ x ∈ m, S x) ∧
        (∀ k, (substPass d ks c).1 k = none ↔ d0 k = none) ∧
        ((∃ k ∈ ks, S k) → (substPass d ks c).2 = true) := by
      intro ks
      induction ks with
      | nil => intro d c h1 _ h3; exact ⟨h1, h3, by simp⟩
      | cons k ks ihk =>
        intro d c h1 h2 h3
        cases hk : d k with
        | none => exact absurd hk (h2 k (by simp))
        | some m =>
          rw [substPass_eq d k ks c hk]
          have hnone : ∀ x, (d.set k (subst d m)) x = none ↔ d x = none := by
            intro x
            rw [Hash.set]
            split
            · next e => subst e; rw [hk]; simp
            · exact Iff.rfl
          have hS' : ∀ x, S x → ∃ m', (d.set k (subst d m)) x = some m' ∧ ∃ y ∈ m', S y := by
            intro x hx
            by_cases hxk : x = k
            · subst hxk
              obtain ⟨m1, hm1, y, hy, hyS⟩ := h1 x hx
              rw [hk] at hm1; cases hm1
              obtain ⟨my, hmy, z, hz, hzS⟩ := h1 y hyS
              refine ⟨subst d m, by rw [Hash.set, if_pos rfl], z, ?_, hzS⟩
              exact List.mem_flatMap.mpr ⟨y, hy, by rw [hmy]; exact hz⟩
            · obtain ⟨m1, hm1, rest⟩ := h1 x hx
              exact ⟨m1, by rw [Hash.set, if_neg hxk]; exact hm1, rest⟩
          obtain ⟨g1, g2, g3⟩ := ihk (d.set k (subst d m)) (c || m.any (fun x => (d x).isSome)) hS'
            (fun x hx => by rw [ne_eq, hnone]; exact h2 x (by simp [hx])) (fun x => by rw [hnone, h3])
          refine ⟨g1, g2, ?_⟩
          rintro ⟨k', hk', hk'S⟩
          rcases List.mem_cons.mp hk' with rfl | hk'
          · obtain ⟨m1, hm1, y, hy, hyS⟩ := h1 k' hk'S
            rw [hk] at hm1; cases hm1
            obtain ⟨my, hmy, _⟩ := h1 y hyS
            have : m.any (fun x => (d x).isSome) = true :=
              List.any_eq_true.mpr ⟨y, hy, by rw [hmy]; rfl⟩
            rw [this, Bool.or_true]
            exact pass_true ks _
          · exact g3 ⟨k', hk', hk'S⟩
    have hks : ∀ k ∈ orders n, d k ≠ none := fun k hk h0 => ((ho n).2 k).mp hk ((hk0 k).mp h0)
    obtain ⟨g1, g2, g3⟩ := pass (orders n) d false hc hks hk0
    obtain ⟨k, hk⟩ := hS
    have hkin : k ∈ orders n := by
      refine ((ho n).2 k).mpr ?_
      obtain ⟨m, hm, _⟩ := hc k hk
      intro h0; rw [(hk0 k).mpr h0] at hm; simp at hm
    have := g3 ⟨k, hkin, hk⟩
    rw [substLoop]
    cases hp : substPass d (orders n) false with
    | mk d1 c =>
      rw [hp] at this g1 g2
      simp only at this
      subst this
      simp only
      exact ih g1 g2 (n + 1)

end U5e
