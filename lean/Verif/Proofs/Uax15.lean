import Verif.Proofs.CanonOrder
import Verif.Proofs.HangulChecks
import Verif.Proofs.Idem
/-! The normalization forms against UAX #15: list-level theory. -/
namespace U5e
open Spec

/-! ### Hangul -/

theorem Form.hang_map (F : Form) {c : Int} {m : List Int} (h : F.map c = some m) :
    ¬ Hang c ∧ ∀ x ∈ m, ¬ IsHangulSyllable x := by
  cases F <;> first | exact hang_dec h | exact hang_kdec h

theorem Form.full_hang (F : Form) {c : Int} (h : Hang c) : full F.map c = [c] := by
  cases hm : F.map c with
  | none => exact F.facts.none_ hm
  | some m => exact absurd h (F.hang_map hm).1

/-- Full decomposition with Hangul. -/
abbrev Form.ufull (F : Form) (c : Int) : List Int := uaxFull F.map c
/-- Full decomposition with Hangul, of a text. -/
abbrev Form.udec (F : Form) (l : List Int) : List Int := l.flatMap (uaxFull F.map)

theorem Form.ufull_syl (F : Form) {c : Int} (h : IsHangulSyllable c) : F.ufull c = hangulDecomposition c := by
  rw [Form.ufull, uaxFull, if_pos h]
theorem Form.ufull_not (F : Form) {c : Int} (h : ¬ IsHangulSyllable c) : F.ufull c = full F.map c := by
  rw [Form.ufull, uaxFull, if_neg h]

theorem jamo_of_syl {c x : Int} (h : IsHangulSyllable c) (hx : x ∈ hangulDecomposition c) :
    0x1100 ≤ x ∧ x ≤ 0x11FF := by
  obtain ⟨h1, h2⟩ := h
  simp only [hangulDecomposition] at hx
  split at hx <;> simp at hx <;> rcases hx with rfl | rfl | hx <;> omega

theorem not_syl_jamo {x : Int} (h : 0x1100 ≤ x ∧ x ≤ 0x11FF) : ¬ IsHangulSyllable x := by
  intro hs; have := hs.1; omega

theorem hangulDecomposition_length {c : Int} : 2 ≤ (hangulDecomposition c).length := by
  simp [hangulDecomposition]

theorem Form.ufull_jamo (F : Form) {x : Int} (h : 0x1100 ≤ x ∧ x ≤ 0x11FF) : F.ufull x = [x] := by
  rw [F.ufull_not (not_syl_jamo h), F.full_hang (.inl h)]

theorem Form.full_not_syl (F : Form) {c x : Int} (hc : ¬ IsHangulSyllable c) (hx : x ∈ full F.map c) :
    ¬ IsHangulSyllable x := by
  cases hm : F.map c with
  | none => rw [F.facts.none_ hm] at hx; simp at hx; rw [hx]; exact hc
  | some m =>
    rw [full, hm] at hx
    exact (F.hang_map hm).2 x ((List.takeWhile_sublist _).subset hx)

theorem flatMap_single {l : List Int} {f : Int → List Int} (h : ∀ x ∈ l, f x = [x]) : l.flatMap f = l := by
  induction l with
  | nil => rfl
  | cons a l ih => rw [List.flatMap_cons, h a (by simp), ih (fun x hx => h x (by simp [hx]))]; rfl

/-- Expanding the Hangul syllables of a decomposition gives the decomposition with Hangul. -/
theorem Form.udec_full (F : Form) (c : Int) : F.udec (full F.map c) = F.ufull c := by
  by_cases h : IsHangulSyllable c
  · rw [F.full_hang (.inr h), Form.udec, List.flatMap_cons, List.flatMap_nil, List.append_nil]
  · rw [F.ufull_not h]
    refine flatMap_single fun x hx => ?_
    show F.ufull x = [x]
    rw [F.ufull_not (F.full_not_syl h hx), F.facts.elem_full hx]

theorem Form.udec_decompose (F : Form) (l : List Int) : F.udec (decompose F.map l) = F.udec l := by
  rw [Form.udec, decompose, List.flatMap_assoc]
  congr 1
  funext c
  exact F.udec_full c

theorem Form.udec_append (F : Form) (a b : List Int) : F.udec (a ++ b) = F.udec a ++ F.udec b :=
  List.flatMap_append
theorem Form.udec_cons (F : Form) (a : Int) (b : List Int) : F.udec (a :: b) = F.ufull a ++ F.udec b := rfl

theorem Form.udec_length (F : Form) (l : List Int) :
    (decompose F.map l).length ≤ (F.udec l).length ∧
      ((decompose F.map l).length = (F.udec l).length → ∀ c ∈ l, ¬ IsHangulSyllable c) := by
  induction l with
  | nil => simp [decompose]
  | cons c l ih =>
    rw [decompose_cons, F.udec_cons, List.length_append, List.length_append]
    by_cases h : IsHangulSyllable c
    · have := hangulDecomposition_length (c := c)
      rw [F.full_hang (.inr h), F.ufull_syl h]
      simp only [List.length_cons, List.length_nil]
      exact ⟨by omega, by omega⟩
    · rw [F.ufull_not h]
      refine ⟨by omega, fun he x hx => ?_⟩
      rcases List.mem_cons.mp hx with rfl | hx
      · exact h
      · exact ih.2 (by omega) x hx

theorem Form.udec_eq (F : Form) {l : List Int} (h : ∀ c ∈ l, ¬ IsHangulSyllable c) :
    F.udec l = decompose F.map l := by
  rw [Form.udec, decompose, List.flatMap_def, List.flatMap_def]
  congr 1
  exact List.map_congr_left fun c hc => F.ufull_not (h c hc)

/-! ### The order of the graphemes' blocks -/

variable {sort : SortFn}

theorem flatMap_congr_lengths' {β γ : Type} {f g : γ → List β} (hl : ∀ x, (f x).length = (g x).length) :
    ∀ ws : List γ, ws.flatMap f = ws.flatMap g → ∀ w ∈ ws, f w = g w := by
  intro ws
  induction ws with
  | nil => simp
  | cons w ws ih =>
    intro h x hx
    rw [List.flatMap_cons, List.flatMap_cons] at h
    obtain ⟨h1, h2⟩ := List.append_inj h (hl w)
    rcases List.mem_cons.mp hx with rfl | hx
    · exact h1
    · exact ih h2 x hx

theorem pattern_flatMap (ccc : Int → Int) {γ : Type} (f : γ → List Int) (ws : List γ) :
    pattern ccc (ws.flatMap f) = ws.flatMap (fun w => pattern ccc (f w)) := by
  rw [pattern, List.map_flatMap]; rfl

/-- A stable sort is canonical ordering if the starters are first. -/
theorem stable_corder (hs : StableSort sort) {l : List Int} (h : StartersFirst cccResolve l) :
    sort canonicalCombiningOrder l = corder cccResolve l :=
  sorted_ext cccResolve (hs.1.sorted l) (corder_sorted ccc_nonneg h)
    (fun k => by rw [stable_filter hs, corder_filter])

/-- Neighbouring blocks. -/
def Form.JuncOK (F : Form) (sort : SortFn) (g h : List Int) : Prop :=
  (F.block sort g = g ∧ decompose F.map g = g ∧ ∀ x ∈ g, cccResolve x = 0) ∨
    (F.block sort h ≠ [] ∧ ∀ y, (F.block sort h).head? = some y → cccResolve y = 0)

theorem Form.juncOK (F : Form) (hs : StableSort sort) (cs : List Int) :
    Adj (F.JuncOK sort) (graphemes cs) := by
  refine adj_iff.mpr fun p g h q he => ?_
  rcases F.junction hs he with ⟨h1, h2⟩ | ⟨c0, h', rfl, hpl, hhd⟩
  · exact .inl ⟨h1, decompose_id fun x hx => F.facts.ctl (h2 x hx), fun x hx => ctl_ccc (h2 x hx)⟩
  · right
    refine ⟨fun h0 => by rw [h0] at hhd; simp at hhd, ?_⟩
    intro y hy
    rw [hhd] at hy; cases hy
    exact plain_ccc (F.plain_hd hpl).1

theorem Form.corder_blocks (F : Form) (hs : StableSort sort) (gs : List (List Int))
    (hj : Adj (F.JuncOK sort) gs) (h : ∀ g ∈ gs, StartersFirst cccResolve (decompose F.map g)) :
    corder cccResolve (gs.flatMap (decompose F.map)) = gs.flatMap (F.block sort) := by
  induction gs with
  | nil => rfl
  | cons g gs ih =>
    rw [adj_cons] at hj
    have ih := ih hj.2 (fun x hx => h x (by simp [hx]))
    rw [List.flatMap_cons, List.flatMap_cons]
    have hb : F.block sort g = corder cccResolve (decompose F.map g) := stable_corder hs (h g (by simp))
    cases gs with
    | nil => simp [hb]
    | cons k gs =>
      rcases hj.1 k rfl with ⟨h1, h2, h3⟩ | ⟨h1, h2⟩
      · rw [h1, h2, corder_starters ccc_nonneg h3, ih]
      · rw [corder_append_starter, ih, hb]
        rw [ih, List.flatMap_cons]
        intro y hy
        refine h2 y ?_
        cases hk : F.block sort k with
        | nil => exact absurd hk h1
        | cons a l => rw [hk] at hy; simpa using hy

/-- The text-level order condition. -/
theorem Form.corder_text_iff (F : Form) (hs : StableSort sort) (cs : List Int) :
    F.base.text sort cs = corder cccResolve (decompose F.map cs) ↔
      ∀ g ∈ graphemes cs, StartersFirst cccResolve (decompose F.map g) := by
  rw [F.base_text, decompose_graphemes]
  constructor
  · intro h g hg
    have := congrArg (pattern cccResolve) h
    rw [corder_pattern, pattern_flatMap, pattern_flatMap] at this
    have := flatMap_congr_lengths' (fun x => by
      simp only [pattern, List.length_map]; exact (hs.1.perm _).length_eq) _ this g hg
    exact (startersFirst_pattern this).mp (startersFirst_sorted ccc_nonneg (hs.1.sorted _))
  · intro h
    exact (F.corder_blocks hs _ (F.juncOK hs cs) h).symm

/-- C35 on lists. -/
theorem Form.isUaxD_iff (F : Form) (hs : StableSort sort) (cs : List Int) :
    IsUaxD cccResolve F.map cs (F.base.text sort cs) ↔
      (∀ c ∈ cs, ¬ IsHangulSyllable c) ∧
        ∀ g ∈ graphemes cs, StartersFirst cccResolve (decompose F.map g) := by
  rw [IsUaxD, isCanonicalOrder_iff, ← F.corder_text_iff hs]
  show F.base.text sort cs = corder cccResolve (F.udec cs) ↔ _
  constructor
  · intro h
    have hl := congrArg List.length h
    rw [(corder_perm _).length_eq] at hl
    have h2 : (F.base.text sort cs).length = (decompose F.map cs).length := by
      have := F.decompose_text_length hs.1 cs
      rw [F.decompose_text hs.1] at this; exact this
    have hno := (F.udec_length cs).2 (by omega)
    rw [F.udec_eq hno] at h
    exact ⟨hno, h⟩
  · rintro ⟨hno, h⟩
    rw [F.udec_eq hno]; exact h

end U5e
