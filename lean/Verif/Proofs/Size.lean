import Verif.Proofs.Idem
import Verif.Proofs.MixedFacts
import Verif.Proofs.Utf8Write
/-! Sums over the codepoints of a text and of its forms; per-row bounds by kernel evaluation. -/
namespace U5e
open Data Spec

/-- Sum of `w` over a list. -/
def sumOf (w : Int → Nat) : List Int → Nat
  | [] => 0
  | a :: l => w a + sumOf w l

theorem sumOf_append (w : Int → Nat) (a b : List Int) : sumOf w (a ++ b) = sumOf w a + sumOf w b := by
  induction a with
  | nil => simp [sumOf]
  | cons x a ih => simp only [List.cons_append, sumOf, ih]; omega

theorem sumOf_perm (w : Int → Nat) {a b : List Int} (h : a.Perm b) : sumOf w a = sumOf w b := by
  induction h with
  | nil => rfl
  | cons x _ ih => simp only [sumOf, ih]
  | swap x y l => simp only [sumOf]; omega
  | trans _ _ h1 h2 => exact h1.trans h2

theorem sumOf_flatMap_le {w v : Int → Nat} {f : Int → List Int} {p q : Nat} (l : List Int)
    (h : ∀ c ∈ l, p * sumOf w (f c) ≤ q * v c) : p * sumOf w (l.flatMap f) ≤ q * sumOf v l := by
  induction l with
  | nil => simp [sumOf]
  | cons c l ih =>
    have h1 := h c (by simp)
    have h2 := ih (fun x hx => h x (by simp [hx]))
    rw [List.flatMap_cons, sumOf_append, sumOf, Nat.mul_add, Nat.mul_add]; omega

theorem sumOf_le_flatMap {w v : Int → Nat} {f : Int → List Int} {p q : Nat} (l : List Int)
    (h : ∀ c ∈ l, p * v c ≤ q * sumOf w (f c)) : p * sumOf v l ≤ q * sumOf w (l.flatMap f) := by
  induction l with
  | nil => simp [sumOf]
  | cons c l ih =>
    have h1 := h c (by simp)
    have h2 := ih (fun x hx => h x (by simp [hx]))
    rw [List.flatMap_cons, sumOf_append, sumOf, Nat.mul_add, Nat.mul_add]; omega

theorem sumOf_one (l : List Int) : sumOf (fun _ => 1) l = l.length := by
  induction l with
  | nil => rfl
  | cons a l ih => simp only [sumOf, ih, List.length_cons]; omega

/-- Decomposing forms: the sum over the output is the sum over all decompositions. -/
theorem Form.sumOf_base (F : Form) {sort : SortFn} (hs : ConformingSort sort) (w : Int → Nat) (cs : List Int) :
    sumOf w (F.base.text sort cs) = sumOf w (cs.flatMap (full F.map)) := by
  rw [F.base_text]
  have hc : (graphemes cs).flatten = cs := segments_flatten isGraphemeBoundary cs
  conv => rhs; rw [← hc]
  generalize graphemes cs = gs
  induction gs with
  | nil => rfl
  | cons g gs ih =>
    rw [List.flatMap_cons, List.flatten_cons, List.flatMap_append, sumOf_append, sumOf_append, ih]
    congr 1
    exact sumOf_perm w (hs.perm _)

/-- Composing does not make a sum larger if no composition does. -/
theorem sumOf_composeFrom {w : Int → Nat} (h : ∀ a b c, compResolve a b = some c → w c ≤ w a + w b) (l : List Int)
    (a : Int) : sumOf w (composeFrom compResolve a l) ≤ w a + sumOf w l := by
  induction l generalizing a with
  | nil => simp [composeFrom, sumOf]
  | cons b l ih =>
    rw [composeFrom]
    cases hc : compResolve a b with
    | none => simp only [sumOf]; have := ih b; omega
    | some c => simp only [sumOf]; have := ih c; have := h a b c hc; omega

theorem sumOf_compose {w : Int → Nat} (h : ∀ a b c, compResolve a b = some c → w c ≤ w a + w b) (l : List Int) :
    sumOf w (compose compResolve l) ≤ sumOf w l := by
  cases l with
  | nil => exact Nat.le_refl _
  | cons a l => exact sumOf_composeFrom h l a

theorem Form.sumOf_text_le (F : Form) {sort : SortFn} (hs : ConformingSort sort) {w : Int → Nat}
    (h : ∀ a b c, compResolve a b = some c → w c ≤ w a + w b) (cs : List Int) :
    sumOf w (F.text sort cs) ≤ sumOf w (cs.flatMap (full F.map)) := by
  rw [← F.sumOf_base hs w cs, F.base_text, Form.text]
  generalize graphemes cs = gs
  induction gs with
  | nil => exact Nat.le_refl _
  | cons g gs ih =>
    rw [List.flatMap_cons, List.flatMap_cons, sumOf_append, sumOf_append]
    refine Nat.add_le_add ?_ ih
    rw [Form.result, Form.block]
    cases F
    · exact Nat.le_refl _
    · exact sumOf_compose h _
    · exact Nat.le_refl _
    · exact sumOf_compose h _

/-- What occurs in the output of a form: codepoints without mapping, and primary composites. -/
theorem Form.text_elem (F : Form) {sort : SortFn} (hs : ConformingSort sort) {cs : List Int} {y : Int}
    (hy : y ∈ F.text sort cs) : full F.map y = [y] ∨ ∃ a b, compResolve a b = some y := by
  obtain ⟨g, _, hy⟩ := List.mem_flatMap.mp hy
  have hblock : ∀ y ∈ sort canonicalCombiningOrder (decompose F.map g), full F.map y = [y] := by
    intro y hy
    obtain ⟨c, _, hy⟩ := List.mem_flatMap.mp ((hs.perm _).mem_iff.mp hy)
    exact F.facts.elem_full hy
  have hfrom : ∀ (l : List Int) (a : Int), ((full F.map a = [a] ∨ ∃ x b, compResolve x b = some a)) →
      (∀ b ∈ l, full F.map b = [b]) → ∀ y ∈ composeFrom compResolve a l,
      full F.map y = [y] ∨ ∃ x b, compResolve x b = some y := by
    intro l
    induction l with
    | nil => intro a ha _ y hy; simp [composeFrom] at hy; rw [hy]; exact ha
    | cons b l ih =>
      intro a ha hl y hy
      rw [composeFrom] at hy
      cases hc : compResolve a b with
      | none =>
        rw [hc] at hy
        rcases List.mem_cons.mp hy with rfl | hy
        · exact ha
        · exact ih b (.inl (hl b (by simp))) (fun x hx => hl x (by simp [hx])) y hy
      | some c =>
        rw [hc] at hy
        exact ih c (.inr ⟨a, b, hc⟩) (fun x hx => hl x (by simp [hx])) y hy
  have hcomp : ∀ y ∈ compose compResolve (sort canonicalCombiningOrder (decompose F.map g)),
      full F.map y = [y] ∨ ∃ a b, compResolve a b = some y := by
    intro y hy
    generalize sort canonicalCombiningOrder (decompose F.map g) = l at hblock hy
    cases l with
    | nil => simp [compose] at hy
    | cons a l =>
      exact hfrom l a (.inl (hblock a (by simp))) (fun b hb => hblock b (by simp [hb])) y hy
  cases F
  · exact .inl (hblock y hy)
  · exact hcomp y hy
  · exact .inl (hblock y hy)
  · exact hcomp y hy

/-! ### Octets -/

/-- Number of octets of a codepoint in UTF-8. -/
def octs (c : Int) : Nat := (encode c.toNat).length

def octT (n : Nat) : Nat :=
  bif Nat.blt n 0x80 then 1 else bif Nat.blt n 0x800 then 2 else bif Nat.blt n 0x10000 then 3
  else bif Nat.blt n 0x200000 then 4 else bif Nat.blt n 0x4000000 then 5 else 6

theorem octs_nat (n : Nat) : octs n = octT n := by
  rw [octs, Int.toNat_natCast, encode_length, octT]
  simp only [Bool.cond_eq_ite, Nat.blt_eq]

/-- A weight: at least the octets of every codepoint that decomposes to this alone. -/
def weightT (n : Nat) : Nat :=
  bif Nat.blt n 0x80 then 3
  else bif Nat.beq n 0xB4 || (Nat.beq n 0x190 || (Nat.beq n 0x3A9 || (Nat.beq n 0x3B9 ||
    (Nat.ble 0x5D0 n && Nat.ble n 0x5D3)))) then 3
  else bif Nat.blt n 0x800 then 2 else bif Nat.blt n 0x3000 then 3 else bif Nat.blt n 0x10000 then 4 else octT n

def weight (c : Int) : Nat := weightT c.toNat

def sumT (w : Nat → Nat) : List Nat → Nat
  | [] => 0
  | a :: l => w a + sumT w l

theorem sumOf_map {w : Int → Nat} {v : Nat → Nat} (h : ∀ n : Nat, w n = v n) (l : List Nat) :
    sumOf w (l.map Int.ofNat) = sumT v l := by
  induction l with
  | nil => rfl
  | cons a l ih =>
    have := h a
    simp only [List.map_cons, sumOf, sumT, ih]
    rw [← this]; rfl

theorem weight_octs (n : Nat) : octT n ≤ weightT n ∧ 2 * weightT n ≤ 7 * octT n := by
  simp only [octT, weightT, Bool.cond_eq_ite, Nat.blt_eq, Bool.or_eq_true, Nat.beq_eq, Bool.and_eq_true, Nat.ble_eq]
  constructor <;> repeat' split
  all_goals omega

/-- Bounds for a row: at most `k` codepoints, octets at most `p / 3` of the key's, the key's octets at most three times
the row's and at most its weight. -/
def sizeRowOK (k p : Nat) : List Nat → Bool
  | [] => false
  | c :: m =>
    Nat.ble 1 (takeNZ m).length && (Nat.ble (takeNZ m).length k &&
      (Nat.ble (3 * sumT octT (takeNZ m)) (p * octT c) &&
        (Nat.ble (octT c) (3 * sumT octT (takeNZ m)) && Nat.ble (octT c) (sumT weightT (takeNZ m)))))

noncomputable def sizeCompOK : List Nat → Bool
  | [a, b, c] => Nat.ble (octT c) (octT a + octT b) &&
      (Nat.ble (2 * sumT weightT (fullT decT c)) (7 * octT c) &&
      (Nat.ble (2 * sumT weightT (fullT kdecT c)) (7 * octT c) &&
      (Nat.ble (fullT decT c).length 4 && Nat.ble (fullT kdecT c).length 4)))
  | _ => false

set_option maxRecDepth 100000 in
theorem dec_size_rows : decTree.all (sizeRowOK 4 9) = true := by decide +kernel
set_option maxRecDepth 100000 in
theorem kdec_size_rows : kdecTree.all (sizeRowOK 7 17) = true := by decide +kernel
set_option maxRecDepth 100000 in
theorem comp_size_rows : compTree.all sizeCompOK = true := by decide +kernel

/-- Bounds for the full mapping of every codepoint. -/
structure SizeFacts (map : Int → Option (List Int)) (k p : Nat) (c : Int) : Prop where
  some_ : 1 ≤ (full map c).length
  few : (full map c).length ≤ k
  octs_le : 3 * sumOf octs (full map c) ≤ p * octs c
  le_octs : octs c ≤ 3 * sumOf octs (full map c)
  le_weight : octs c ≤ sumOf weight (full map c)

theorem weight_nat (n : Nat) : weight n = weightT n := by rw [weight, Int.toNat_natCast]

theorem octs_weight (c : Int) : octs c ≤ weight c ∧ 2 * weight c ≤ 7 * octs c := by
  have h := weight_octs c.toNat
  have e : octs c = octT c.toNat := by
    rw [← octs_nat, octs, octs, Int.toNat_natCast]
  rw [e, weight]; exact h

theorem sizeFacts_self {map : Int → Option (List Int)} {k p : Nat} {c : Int} (h : full map c = [c]) (hk : 1 ≤ k)
    (hp : 3 ≤ p) : SizeFacts map k p c := by
  have hw := octs_weight c
  have h3 : 3 * octs c ≤ p * octs c := Nat.mul_le_mul_right _ hp
  constructor <;> rw [h] <;> simp only [sumOf, List.length_cons, List.length_nil] <;> omega

theorem sizeFacts_of {map : Int → Option (List Int)} {f : Nat → Option (List Nat)} {tr : Tree (List Nat)} {k p : Nat}
    (hn : ∀ c : Nat, map c = (f c).map (·.map Int.ofNat)) (hneg : ∀ c : Int, c < 0 → map c = none)
    (hf : ∀ c, f c = (tr.find (cmpN c)).map List.tail) (hrows : tr.all (sizeRowOK k p) = true) (hk : 1 ≤ k)
    (hp : 3 ≤ p) (c : Int) : SizeFacts map k p c := by
  by_cases h0 : c < 0
  · exact sizeFacts_self (full_neg hneg c h0) hk hp
  obtain ⟨n, rfl⟩ : ∃ n : Nat, c = n := ⟨c.toNat, by omega⟩
  cases hfn : f n with
  | none => exact sizeFacts_self (by rw [full, hn, hfn]; rfl) hk hp
  | some m =>
    have hrow := row_of hf hrows rfl hfn
    simp only [sizeRowOK, Bool.and_eq_true, Nat.ble_eq] at hrow
    obtain ⟨h1, h2, h3, h4, h5⟩ := hrow
    have e : full map n = (takeNZ m).map Int.ofNat := by rw [full_nat hn, fullT, hfn]
    constructor <;> rw [e]
    · rw [List.length_map]; exact h1
    · rw [List.length_map]; exact h2
    · rw [sumOf_map octs_nat, octs_nat]; exact h3
    · rw [sumOf_map octs_nat, octs_nat]; exact h4
    · rw [sumOf_map weight_nat, octs_nat]; exact h5

/-- Largest number of codepoints of a mapping, and three times the largest growth in octets. -/
def Form.maxLen : Form → Nat
  | .D | .C => 4
  | .KD | .KC => 7
def Form.maxOct : Form → Nat
  | .D | .C => 9
  | .KD | .KC => 17

theorem Form.sizeFacts (F : Form) (c : Int) : SizeFacts F.map F.maxLen F.maxOct c := by
  cases F
  · exact sizeFacts_of decResolve_nat decResolve_neg (fun _ => rfl) dec_size_rows (by decide) (by decide) c
  · exact sizeFacts_of decResolve_nat decResolve_neg (fun _ => rfl) dec_size_rows (by decide) (by decide) c
  · exact sizeFacts_of kdecResolve_nat kdecResolve_neg (fun _ => rfl) kdec_size_rows (by decide) (by decide) c
  · exact sizeFacts_of kdecResolve_nat kdecResolve_neg (fun _ => rfl) kdec_size_rows (by decide) (by decide) c

theorem Form.comp_size (F : Form) {a b c : Int} (h : compResolve a b = some c) :
    octs c ≤ octs a + octs b ∧ 2 * sumOf weight (full F.map c) ≤ 7 * octs c ∧ (full F.map c).length ≤ 4 := by
  obtain ⟨i, j, k, rfl, rfl, rfl, hm⟩ := (C27_comp_iff a b c).mp h
  rw [← compTree_toList] at hm
  have hrow := (Tree.all_iff _ _).mp comp_size_rows _ hm
  simp only [sizeCompOK, Bool.and_eq_true, Nat.ble_eq] at hrow
  obtain ⟨h1, h2, h3, h4, h5⟩ := hrow
  refine ⟨by simpa only [octs_nat] using h1, ?_, ?_⟩
  · rw [octs_nat]
    cases F
    · show 2 * sumOf weight (full decResolve k) ≤ _
      rw [full_nat decResolve_nat, sumOf_map weight_nat]; exact h2
    · show 2 * sumOf weight (full decResolve k) ≤ _
      rw [full_nat decResolve_nat, sumOf_map weight_nat]; exact h2
    · show 2 * sumOf weight (full kdecResolve k) ≤ _
      rw [full_nat kdecResolve_nat, sumOf_map weight_nat]; exact h3
    · show 2 * sumOf weight (full kdecResolve k) ≤ _
      rw [full_nat kdecResolve_nat, sumOf_map weight_nat]; exact h3
  · cases F
    · show (full decResolve k).length ≤ _
      rw [full_nat decResolve_nat, List.length_map]; exact h4
    · show (full decResolve k).length ≤ _
      rw [full_nat decResolve_nat, List.length_map]; exact h4
    · show (full kdecResolve k).length ≤ _
      rw [full_nat kdecResolve_nat, List.length_map]; exact h5
    · show (full kdecResolve k).length ≤ _
      rw [full_nat kdecResolve_nat, List.length_map]; exact h5

/-! ### Whole texts -/

theorem Form.text_len_le (F : Form) {sort : SortFn} (hs : ConformingSort sort) (cs : List Int) :
    (F.text sort cs).length ≤ F.maxLen * cs.length := by
  have h1 := F.sumOf_text_le hs (w := fun _ => 1) (fun _ _ _ _ => by omega) cs
  have h2 := sumOf_flatMap_le (w := fun _ => 1) (v := fun _ => 1) (f := full F.map) (p := 1) (q := F.maxLen) cs
    (fun c _ => by rw [sumOf_one]; have := (F.sizeFacts c).few; omega)
  rw [sumOf_one] at h1
  rw [Nat.one_mul, sumOf_one] at h2
  rw [sumOf_one] at h1 h2
  omega

theorem Form.base_len_ge (F : Form) {sort : SortFn} (hs : ConformingSort sort) (cs : List Int) :
    cs.length ≤ (F.base.text sort cs).length := by
  have h1 := F.sumOf_base hs (fun _ => 1) cs
  have h2 := sumOf_le_flatMap (w := fun _ => 1) (v := fun _ => 1) (f := full F.map) (p := 1) (q := 1) cs
    (fun c _ => by rw [sumOf_one]; have := (F.sizeFacts c).some_; omega)
  rw [sumOf_one, sumOf_one] at h1 h2
  omega

theorem Form.text_len_ge (F : Form) {sort : SortFn} (hs : ConformingSort sort) (cs : List Int) :
    cs.length ≤ 4 * (F.text sort cs).length := by
  have h1 := F.base_len_ge hs cs
  have h2 := sumOf_flatMap_le (w := fun _ => 1) (v := fun _ => 1) (f := full F.map) (p := 1) (q := 4)
    (F.text sort cs) (fun c hc => by
      rw [sumOf_one]
      rcases F.text_elem hs hc with h | ⟨a, b, h⟩
      · rw [h]; simp
      · have := (F.comp_size h).2.2; omega)
  have e := F.decompose_text hs cs
  rw [decompose] at e
  rw [e, sumOf_one, sumOf_one] at h2
  omega

theorem Form.text_oct_le (F : Form) {sort : SortFn} (hs : ConformingSort sort) (cs : List Int) :
    3 * sumOf octs (F.text sort cs) ≤ F.maxOct * sumOf octs cs := by
  have h1 := F.sumOf_text_le hs (w := octs) (fun _ _ _ h => (F.comp_size h).1) cs
  have h2 := sumOf_flatMap_le (w := octs) (v := octs) (f := full F.map) (p := 3) (q := F.maxOct) cs
    (fun c _ => (F.sizeFacts c).octs_le)
  omega

theorem Form.base_oct_ge (F : Form) {sort : SortFn} (hs : ConformingSort sort) (cs : List Int) :
    sumOf octs cs ≤ 3 * sumOf octs (F.base.text sort cs) := by
  have h1 := F.sumOf_base hs octs cs
  have h2 := sumOf_le_flatMap (w := octs) (v := octs) (f := full F.map) (p := 1) (q := 3) cs
    (fun c _ => by have := (F.sizeFacts c).le_octs; omega)
  omega

theorem Form.text_oct_ge (F : Form) {sort : SortFn} (hs : ConformingSort sort) (cs : List Int) :
    2 * sumOf octs cs ≤ 7 * sumOf octs (F.text sort cs) := by
  have h1 := F.sumOf_base hs weight cs
  have h2 := sumOf_le_flatMap (w := weight) (v := octs) (f := full F.map) (p := 1) (q := 1) cs
    (fun c _ => by have := (F.sizeFacts c).le_weight; omega)
  have h3 := sumOf_flatMap_le (w := weight) (v := octs) (f := full F.map) (p := 2) (q := 7)
    (F.text sort cs) (fun c hc => by
      rcases F.text_elem hs hc with h | ⟨a, b, h⟩
      · rw [h, sumOf, sumOf]; have := (octs_weight c).2; omega
      · exact (F.comp_size h).2.1)
  have e := F.decompose_text hs cs
  rw [decompose] at e
  rw [e] at h3
  omega

theorem sumOf_octs (cs : List Nat) : sumOf octs (cs.map Int.ofNat) = (encodeText cs).length := by
  induction cs with
  | nil => rfl
  | cons c cs ih =>
    rw [List.map_cons, sumOf, ih, encodeText, encodeText, List.flatMap_cons, List.length_append]
    rfl

end U5e
