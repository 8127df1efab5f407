import Verif.Proofs.GenLookup
import Verif.Proofs.UaxComp
/-! The normalization forms against UnicodeData.txt. -/
namespace U5e
open Data Spec

set_option maxRecDepth 100000 in
theorem ucd_not_hang : ucdTree.all (fun r => !(hang r.cp)) = true := by decide +kernel

theorem mapping_hang {tags : Nat → Bool} {k : Nat} (h : Hang k) : mapping tags k = none := by
  cases hm : mapping tags k with
  | none => rfl
  | some m =>
    obtain ⟨r, hr, rfl, _⟩ := mapping_iff.mp hm
    have := ucd_all ucd_not_hang hr
    rw [(hang_iff r.cp).mpr h] at this; simp at this

/-- Mappings used by a form according to UAX #15. -/
def Form.tags : Form → Nat → Bool
  | .D | .C => canonicalTag
  | .KD | .KC => anyTag

/-- The codepoints for which the code's table is incomplete. -/
def Form.Missing (F : Form) (c : Int) : Prop := match F with
  | .D | .C => False
  | .KD | .KC => OtherTag c

theorem Form.full_lookup (F : Form) {k : Nat} (h : ¬ F.Missing k) :
    ∃ l, Expands (mapping F.tags) [k] l ∧ full F.map k = l.map Int.ofNat := by
  cases F
  · exact fullD_lookup k
  · exact fullD_lookup k
  · exact fullAny_lookup k h
  · exact fullAny_lookup k h

theorem Form.full_neg (F : Form) {c : Int} (h : c < 0) : full F.map c = [c] := by
  refine F.facts.none_ ?_
  cases F
  · exact decResolve_neg c h
  · exact decResolve_neg c h
  · exact kdecResolve_neg c h
  · exact kdecResolve_neg c h

theorem Form.ucdFull_iff (F : Form) {c : Int} (h : ¬ F.Missing c) (l : List Int) :
    UcdFull F.tags c l ↔ l = F.ufull c := by
  rw [UcdFull, Form.ufull, uaxFull]
  by_cases hs : IsHangulSyllable c
  · rw [if_pos hs, if_pos hs]
  · rw [if_neg hs, if_neg hs]
    by_cases hn : c < 0
    · rw [if_pos hn, F.full_neg hn]
    · rw [if_neg hn]
      have hc : ((c.toNat : Nat) : Int) = c := Int.toNat_of_nonneg (by omega)
      obtain ⟨m, h1, h2⟩ := F.full_lookup (k := c.toNat) (by rw [hc]; exact h)
      rw [hc] at h2
      constructor
      · rintro ⟨m', h3, rfl⟩
        rw [h2, h1.det h3]
      · rintro rfl
        exact ⟨m, h1, h2⟩

theorem Form.ucdFull_exists (F : Form) (c : Int) : ∃ l, UcdFull F.tags c l := by
  by_cases h : F.Missing c
  · rw [show F.tags = anyTag by cases F <;> first | rfl | exact absurd h id]
    by_cases hs : IsHangulSyllable c
    · exact ⟨_, by rw [UcdFull, if_pos hs]⟩
    · by_cases hn : c < 0
      · exact ⟨[c], by rw [UcdFull, if_neg hs, if_pos hn]⟩
      · obtain ⟨m, hm⟩ := fullAny_total c.toNat
        exact ⟨m.map Int.ofNat, by rw [UcdFull, if_neg hs, if_neg hn]; exact ⟨m, hm, rfl⟩⟩
  · exact ⟨_, (F.ucdFull_iff h _).mpr rfl⟩

theorem ucdFull_det {tags : Nat → Bool} {c : Int} {l l' : List Int} (h : UcdFull tags c l)
    (h' : UcdFull tags c l') : l = l' := by
  rw [UcdFull] at h h'
  split at h
  · next hs => rw [if_pos hs] at h'; rw [h, h']
  · next hs =>
    rw [if_neg hs] at h'
    split at h
    · next hn => rw [if_pos hn] at h'; rw [h, h']
    · next hn =>
      rw [if_neg hn] at h'
      obtain ⟨m, h1, rfl⟩ := h
      obtain ⟨m', h2, rfl⟩ := h'
      rw [h1.det h2]

theorem ucdDecomposition_det {tags : Nat → Bool} {cs l l' : List Int} (h : UcdDecomposition tags cs l)
    (h' : UcdDecomposition tags cs l') : l = l' := by
  induction h generalizing l' with
  | nil => cases h'; rfl
  | cons h1 _ ih => cases h' with
    | cons g1 g2 => rw [ucdFull_det h1 g1, ih g2]

theorem Form.ucdDecomposition_exists (F : Form) (cs : List Int) : ∃ l, UcdDecomposition F.tags cs l := by
  induction cs with
  | nil => exact ⟨[], .nil⟩
  | cons c cs ih =>
    obtain ⟨l, hl⟩ := ih
    obtain ⟨m, hm⟩ := F.ucdFull_exists c
    exact ⟨m ++ l, .cons hm hl⟩

theorem Form.ucdDecomposition_iff (F : Form) {cs : List Int} (h : ∀ c ∈ cs, ¬ F.Missing c) (l : List Int) :
    UcdDecomposition F.tags cs l ↔ l = F.udec cs := by
  induction cs generalizing l with
  | nil =>
    constructor
    · intro h; cases h; rfl
    · rintro rfl; exact .nil
  | cons c cs ih =>
    have ih := ih fun x hx => h x (by simp [hx])
    have hc := F.ucdFull_iff (h c (by simp))
    rw [Form.udec, List.flatMap_cons]
    constructor
    · intro h
      cases h with
      | cons h1 h2 => rw [(hc _).mp h1, (ih _).mp h2]
    · rintro rfl
      exact .cons ((hc _).mpr rfl) ((ih _).mpr rfl)

theorem ucdClass_fun : ucdClass = cccResolve := funext ucdClass_eq

theorem Form.isUcdD_iff (F : Form) {cs : List Int} (h : ∀ c ∈ cs, ¬ F.Missing c) (d : List Int) :
    IsUcdD F.tags cs d ↔ IsUaxD cccResolve F.map cs d := by
  rw [IsUcdD, IsUaxD, ucdClass_fun]
  constructor
  · rintro ⟨l, h1, h2⟩; rw [(F.ucdDecomposition_iff h l).mp h1] at h2; exact h2
  · intro h2; exact ⟨_, (F.ucdDecomposition_iff h _).mpr rfl, h2⟩

theorem Form.isUcdC_iff (F : Form) {cs : List Int} (h : ∀ c ∈ cs, ¬ F.Missing c) (n : List Int) :
    IsUcdC F.tags cs n ↔ IsUaxC cccResolve F.map compResolve cs n := by
  rw [IsUcdC, IsUaxC, ucdClass_fun, primaryComposite_eq]
  simp only [F.isUcdD_iff h]

/-! ### Codepoints whose mapping the code does not have -/

/-- No codepoint of the code's own decomposition of `y` has a mapping in UnicodeData.txt. -/
def NoMapping (y : Int) : Prop := ∀ x ∈ fullK y, 0 ≤ x → mapping anyTag x.toNat = none

theorem noMapping_atom {x : Int} (h : 0 ≤ x → mapping anyTag x.toNat = none) : NoMapping x := by
  have hk : fullK x = [x] := by
    by_cases hn : 0 ≤ x
    · by_cases ho : OtherTag x
      · exact factsK.none_ (otherTag_facts ho).2.1
      · have hx : ((x.toNat : Nat) : Int) = x := Int.toNat_of_nonneg hn
        obtain ⟨l, h1, h2⟩ := fullAny_lookup x.toNat (by rw [hx]; exact ho)
        have := h1.det (.keep (h hn) .nil)
        rw [hx, this] at h2
        rw [h2]; simp; omega
    · exact Form.full_neg .KD (by omega)
  intro y hy hy0
  rw [hk] at hy
  simp at hy; subst hy; exact h hy0

theorem noMapping_comp {a b c : Int} (ha : NoMapping a) (hb : NoMapping b) (h : ucomp a b = some c) :
    NoMapping c := by
  simp only [uaxComp] at h
  split at h
  · next s hs =>
    simp at h; subst h
    have hsyl : IsHangulSyllable s := by
      rw [hangulComposition] at hs
      split at hs
      · simp at hs; constructor <;> omega
      · split at hs
        · next hh => simp at hs; have h1 := hh.1.1; have h2 := hh.1.2; constructor <;> omega
        · simp at hs
    refine noMapping_atom fun h0 => mapping_hang (.inr ?_)
    rw [Int.toNat_of_nonneg h0]; exact hsyl
  · intro x hx
    rw [comp_fullK h] at hx
    rcases List.mem_append.mp hx with hx | hx
    · exact ha x hx
    · exact hb x hx

theorem uaxCompose_all {P : Int → Prop} {ccc : Int → Int} {comp : Int → Int → Option Int}
    (hc : ∀ a b c, P a → P b → comp a b = some c → P c) {l : List Int} (h : ∀ x ∈ l, P x) :
    ∀ x ∈ uaxCompose ccc comp l, P x := by
  have key : ∀ (l acc : List Int), (∀ x ∈ l, P x) → (∀ x ∈ acc, P x) →
      ∀ x ∈ l.foldl (composeStep ccc comp) acc, P x := by
    intro l
    induction l with
    | nil => intro acc _ h; exact h
    | cons c l ih =>
      intro acc h1 h2
      refine ih _ (fun x hx => h1 x (by simp [hx])) ?_
      have hcons : ∀ x ∈ c :: acc, P x := by
        intro x hx
        rcases List.mem_cons.mp hx with rfl | hx
        · exact h1 x (by simp)
        · exact h2 x hx
      rw [composeStep]
      split
      · exact hcons
      · next s before hd =>
        have hs : ∀ x ∈ s :: before, P x := by
          rw [← hd]; intro x hx; exact h2 x ((List.dropWhile_sublist _).subset hx)
        split
        · split
          · next p hp =>
            intro x hx
            rcases List.mem_append.mp hx with hx | hx
            · exact h2 x ((List.takeWhile_sublist _).subset hx)
            · rcases List.mem_cons.mp hx with rfl | hx
              · exact hc s c x (hs s (by simp)) (h1 c (by simp)) hp
              · exact hs x (by simp [hx])
          · exact hcons
        · exact hcons
  intro x hx
  exact key l [] h (by simp) x (List.mem_reverse.mp hx)

theorem exchanges_perm {ccc : Int → Int} {l m : List Int} (h : Exchanges ccc l m) : m.Perm l := by
  induction h with
  | refl => exact .refl _
  | step h1 _ ih =>
    refine ih.trans ?_
    cases h1 with
    | mk p a b q _ _ => exact (List.Perm.swap _ _ _).append_left _

theorem expands_atoms {d : Nat → Option (List Nat)} {xs l : List Nat} (h : Expands d xs l) :
    ∀ x ∈ l, d x = none := by
  induction h with
  | nil => simp
  | keep hx _ ih =>
    intro y hy
    rcases List.mem_cons.mp hy with rfl | hy
    · exact hx
    · exact ih y hy
  | expand _ _ _ ih1 ih2 =>
    intro y hy
    rcases List.mem_append.mp hy with hy | hy
    · exact ih1 y hy
    · exact ih2 y hy

theorem ucdFull_atoms {tags : Nat → Bool} {c : Int} {l : List Int} (h : UcdFull tags c l) :
    ∀ x ∈ l, 0 ≤ x → mapping tags x.toNat = none := by
  rw [UcdFull] at h
  intro x hx h0
  split at h
  · next hs =>
    rw [h] at hx
    refine mapping_hang (.inl ?_)
    have := jamo_of_syl hs hx
    omega
  · split at h
    · rw [h] at hx; simp at hx; omega
    · obtain ⟨m, hm, rfl⟩ := h
      obtain ⟨k, hk, rfl⟩ := List.mem_map.mp hx
      exact expands_atoms hm k hk

theorem ucdDecomposition_atoms {tags : Nat → Bool} {cs l : List Int} (h : UcdDecomposition tags cs l) :
    ∀ x ∈ l, 0 ≤ x → mapping tags x.toNat = none := by
  induction h with
  | nil => simp
  | cons h1 _ ih =>
    intro x hx
    rcases List.mem_append.mp hx with hx | hx
    · exact ucdFull_atoms h1 x hx
    · exact ih x hx

theorem ucdD_noMapping {cs d : List Int} (h : IsUcdD anyTag cs d) : ∀ x ∈ d, NoMapping x := by
  obtain ⟨l, h1, h2, _⟩ := h
  intro x hx
  exact noMapping_atom (ucdDecomposition_atoms h1 x ((exchanges_perm h2).mem_iff.mp hx))

theorem ucdC_noMapping {cs n : List Int} (h : IsUcdC anyTag cs n) : ∀ x ∈ n, NoMapping x := by
  obtain ⟨d, h1, rfl⟩ := h
  rw [primaryComposite_eq]
  exact uaxCompose_all (fun a b c ha hb h => noMapping_comp ha hb h) (ucdD_noMapping h1)

/-- The output of the code keeps a codepoint whose mapping it does not have. -/
theorem text_keeps {sort : SortFn} (hs : ConformingSort sort) {F : Form} (hF : F.map = kdecResolve) {cs : List Int}
    {c : Int} (hc : c ∈ cs) (ho : OtherTag c) : ∃ y ∈ F.text sort cs, ¬ NoMapping y := by
  obtain ⟨h0, h1, h2⟩ := otherTag_facts ho
  have hm : c ∈ F.base.text sort cs := by
    have : c ∈ decompose F.map cs := List.mem_flatMap.mpr ⟨c, hc, by rw [hF, factsK.none_ h1]; simp⟩
    rw [decompose_graphemes] at this
    rw [F.base_text]
    obtain ⟨g, hg, hcg⟩ := List.mem_flatMap.mp this
    exact List.mem_flatMap.mpr ⟨g, hg, (hs.perm _).mem_iff.mpr hcg⟩
  rw [← F.decompose_text hs] at hm
  obtain ⟨y, hy, hcy⟩ := List.mem_flatMap.mp hm
  refine ⟨y, hy, fun hn => h2 (hn c (by rw [← hF]; exact hcy) h0)⟩

end U5e
