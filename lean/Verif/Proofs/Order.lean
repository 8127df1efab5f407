import Verif.Proofs.Utf8Spec
/-! The order of the encodings is the order of the codepoints; where encoded texts occur in each other. -/
namespace U5e
open Spec

/-- The lists first differ in an element both have, and there the first list has the smaller one. -/
def LessAt (l m : List UInt8) : Prop := ∃ p x y s t, l = p ++ x :: s ∧ m = p ++ y :: t ∧ x < y

theorem LessAt.step {a b : Nat} {s t : List UInt8} (hb : b < 256) (h : a < b ∨ a = b ∧ LessAt s t) :
    LessAt (UInt8.ofNat a :: s) (UInt8.ofNat b :: t) := by
  rcases h with h | ⟨rfl, p, x, y, s', t', rfl, rfl, h⟩
  · exact ⟨[], _, _, s, t, rfl, rfl, by
      rw [UInt8.lt_iff_toNat_lt, ofNat_toNat (by omega), ofNat_toNat hb]; exact h⟩
  · exact ⟨_ :: p, x, y, s', t', rfl, rfl, h⟩

/-- `k + 1` octets: the first is `b` plus the leading digits, then six bits each. -/
def form (b : Nat) : Nat → Nat → List UInt8
  | 0, c => [UInt8.ofNat (b + c)]
  | k + 1, c => form b k (c / 64) ++ [UInt8.ofNat (0x80 + c % 64)]

theorem LessAt.append {l m : List UInt8} (h : LessAt l m) (s t : List UInt8) : LessAt (l ++ s) (m ++ t) := by
  obtain ⟨p, x, y, s', t', rfl, rfl, h⟩ := h
  exact ⟨p, x, y, s' ++ s, t' ++ t, by simp, by simp, h⟩

theorem form_less (b k : Nat) {c d : Nat} (h : c < d) (hd : b + d / 64 ^ k < 256) : LessAt (form b k c) (form b k d) := by
  induction k generalizing c d with
  | zero => exact .step (by simpa using hd) (.inl (by omega))
  | succ k ih =>
    rw [form, form]
    by_cases hq : c / 64 < d / 64
    · exact (ih hq (by rw [Nat.div_div_eq_div_mul, ← Nat.pow_succ']; exact hd)).append _ _
    · have e : c / 64 = d / 64 := by omega
      rw [e]
      refine ⟨form b k (d / 64), _, _, [], [], rfl, rfl, ?_⟩
      rw [UInt8.lt_iff_toNat_lt, ofNat_toNat (by omega), ofNat_toNat (by omega)]; omega

theorem encode_form (c : Nat) : encode c =
    if c < 0x80 then form 0 0 c else if c < 0x800 then form 0xC0 1 c else if c < 0x10000 then form 0xE0 2 c
    else if c < 0x200000 then form 0xF0 3 c else if c < 0x4000000 then form 0xF8 4 c else form 0xFC 5 c := by
  unfold encode
  simp only [form, Nat.div_div_eq_div_mul, Nat.zero_add, List.cons_append, List.nil_append]

theorem lead_less {a b : Nat} {s t : List UInt8} (h : a < b) (hb : b < 256) :
    LessAt (UInt8.ofNat a :: s) (UInt8.ofNat b :: t) := .step hb (.inl h)

theorem encode_less {c d : Nat} (h : c < d) (hd : d < 2 ^ 31) : LessAt (encode c) (encode d) := by
  have hsame : ∀ b k, encode c = form b k c → encode d = form b k d → b + d / 64 ^ k < 256 →
      LessAt (encode c) (encode d) := by
    intro b k h1 h2 h3; rw [h1, h2]; exact form_less b k h h3
  by_cases h1 : d < 0x80
  · exact hsame 0 0 (by rw [encode_form, if_pos (by omega)]) (by rw [encode_form, if_pos h1]) (by omega)
  by_cases h2 : d < 0x800
  · by_cases g1 : c < 0x80
    · unfold encode
      rw [if_pos g1, if_neg h1, if_pos h2]
      exact lead_less (by omega) (by omega)
    · exact hsame 0xC0 1 (by rw [encode_form, if_neg g1, if_pos (by omega)]) (by rw [encode_form, if_neg h1, if_pos h2])
        (by omega)
  by_cases h3 : d < 0x10000
  · by_cases g2 : c < 0x800
    · unfold encode
      rw [if_neg h1, if_neg h2, if_pos h3]
      repeat' split
      all_goals first | omega | exact lead_less (by omega) (by omega)
    · exact hsame 0xE0 2 (by rw [encode_form, if_neg (by omega), if_neg g2, if_pos (by omega)])
        (by rw [encode_form, if_neg h1, if_neg h2, if_pos h3]) (by omega)
  by_cases h4 : d < 0x200000
  · by_cases g2 : c < 0x10000
    · unfold encode
      rw [if_neg h1, if_neg h2, if_neg h3, if_pos h4]
      repeat' split
      all_goals first | omega | exact lead_less (by omega) (by omega)
    · exact hsame 0xF0 3 (by rw [encode_form, if_neg (by omega), if_neg (by omega), if_neg g2, if_pos (by omega)])
        (by rw [encode_form, if_neg h1, if_neg h2, if_neg h3, if_pos h4]) (by omega)
  by_cases h5 : d < 0x4000000
  · by_cases g2 : c < 0x200000
    · unfold encode
      rw [if_neg h1, if_neg h2, if_neg h3, if_neg h4, if_pos h5]
      repeat' split
      all_goals first | omega | exact lead_less (by omega) (by omega)
    · exact hsame 0xF8 4 (by rw [encode_form, if_neg (by omega), if_neg (by omega), if_neg (by omega), if_neg g2,
          if_pos (by omega)])
        (by rw [encode_form, if_neg h1, if_neg h2, if_neg h3, if_neg h4, if_pos h5]) (by omega)
  · by_cases g2 : c < 0x4000000
    · unfold encode
      rw [if_neg h1, if_neg h2, if_neg h3, if_neg h4, if_neg h5]
      repeat' split
      all_goals first | omega | exact lead_less (by omega) (by omega)
    · exact hsame 0xFC 5 (by rw [encode_form, if_neg (by omega), if_neg (by omega), if_neg (by omega),
          if_neg (by omega), if_neg g2])
        (by rw [encode_form, if_neg h1, if_neg h2, if_neg h3, if_neg h4, if_neg h5]) (by omega)

theorem LessAt.cons_append {l m : List UInt8} (h : LessAt l m) (p : List UInt8) : LessAt (p ++ l) (p ++ m) := by
  obtain ⟨p', x, y, s', t', rfl, rfl, h⟩ := h
  exact ⟨p ++ p', x, y, s', t', by simp, by simp, h⟩

theorem LessAt.lt {l m : List UInt8} (h : LessAt l m) : l < m := by
  obtain ⟨p, x, y, s, t, rfl, rfl, h⟩ := h
  induction p with
  | nil => simp [List.cons_lt_cons_iff, h]
  | cons a p ih => simpa [List.cons_lt_cons_iff] using ih

theorem LessAt.not_prefix {l m : List UInt8} (h : LessAt l m) : ¬ l <+: m ∧ ¬ m <+: l := by
  obtain ⟨p, x, y, s, t, rfl, rfl, h⟩ := h
  have hne : x ≠ y := by intro e; rw [e] at h; exact absurd h (by simp)
  constructor
  · intro hp
    have := (List.prefix_append_right_inj p).mp hp
    rw [List.cons_prefix_cons] at this
    exact hne this.1
  · intro hp
    have := (List.prefix_append_right_inj p).mp hp
    rw [List.cons_prefix_cons] at this
    exact hne this.1.symm

theorem encodeText_cons (c : Nat) (cs : List Nat) : encodeText (c :: cs) = encode c ++ encodeText cs := by
  rw [encodeText, List.flatMap_cons]; rfl

theorem encode_ne_nil (c : Nat) : encode c ≠ [] := by
  unfold encode; repeat' split
  all_goals simp

theorem listNat_tri (a b : List Nat) : a < b ∨ a = b ∨ b < a := by
  induction a generalizing b with
  | nil => cases b <;> simp
  | cons x a ih =>
    cases b with
    | nil => simp
    | cons y b =>
      simp only [List.cons_lt_cons_iff, List.cons.injEq]
      rcases Nat.lt_trichotomy x y with h | h | h
      · exact .inl (.inl h)
      · rcases ih b with h' | h' | h'
        · exact .inl (.inr ⟨h, h'⟩)
        · exact .inr (.inl ⟨h, h'⟩)
        · exact .inr (.inr (.inr ⟨h.symm, h'⟩))
      · exact .inr (.inr (.inl h))

theorem encodeText_mono {cs ds : List Nat} (hd : ∀ d ∈ ds, d < 2 ^ 31) (h : cs < ds) :
    encodeText cs < encodeText ds := by
  induction cs generalizing ds with
  | nil =>
    cases ds with
    | nil => exact absurd h (by simp)
    | cons d ds =>
      rw [encodeText_cons]
      cases he : encode d with
      | nil => exact absurd he (encode_ne_nil d)
      | cons o os => simp [encodeText]
  | cons c cs ih =>
    cases ds with
    | nil => exact absurd h (by simp)
    | cons d ds =>
      rw [encodeText_cons, encodeText_cons]
      rcases List.cons_lt_cons_iff.mp h with h | ⟨rfl, h'⟩
      · exact ((encode_less h (hd d (by simp))).append _ _).lt
      · have := ih (ds := ds) (fun d h => hd d (List.mem_cons_of_mem _ h)) h'
        generalize encode c = p
        induction p with
        | nil => exact this
        | cons a p ih => simpa [List.cons_lt_cons_iff] using ih

theorem encodeText_inj {cs ds : List Nat} (hc : ∀ d ∈ cs, d < 2 ^ 31) (hd : ∀ d ∈ ds, d < 2 ^ 31) :
    encodeText cs = encodeText ds ↔ cs = ds := by
  refine ⟨fun h => ?_, fun h => by rw [h]⟩
  rcases listNat_tri cs ds with h' | h' | h'
  · exact absurd (encodeText_mono hd h') (by rw [h]; exact List.lt_irrefl _)
  · exact h'
  · exact absurd (encodeText_mono hc h') (by rw [h]; exact List.lt_irrefl _)

theorem encodeText_lt_iff {cs ds : List Nat} (hc : ∀ d ∈ cs, d < 2 ^ 31) (hd : ∀ d ∈ ds, d < 2 ^ 31) :
    encodeText cs < encodeText ds ↔ cs < ds := by
  refine ⟨fun h => ?_, encodeText_mono hd⟩
  rcases listNat_tri cs ds with h' | h' | h'
  · exact h'
  · subst h'; exact absurd h (List.lt_irrefl _)
  · exact absurd (List.lt_trans h (encodeText_mono hc h')) (List.lt_irrefl _)

/-- A text begins with another exactly if its encoding begins with the other's. -/
theorem encodeText_prefix_iff {ds cs : List Nat} (hd : ∀ d ∈ ds, d < 2 ^ 31) (hc : ∀ c ∈ cs, c < 2 ^ 31) :
    encodeText ds <+: encodeText cs ↔ ds <+: cs := by
  induction ds generalizing cs with
  | nil => simp [encodeText]
  | cons d ds ih =>
    cases cs with
    | nil =>
      have : ¬ encodeText (d :: ds) <+: [] := by
        rw [encodeText_cons, List.prefix_nil]
        intro h
        exact encode_ne_nil d (List.append_eq_nil_iff.mp h).1
      simpa [encodeText] using this
    | cons c cs =>
      rw [encodeText_cons, encodeText_cons, List.cons_prefix_cons]
      rcases Nat.lt_trichotomy d c with h | rfl | h
      · have := ((encode_less h (hc c (by simp))).append (encodeText ds) (encodeText cs)).not_prefix.1
        exact ⟨fun hp => absurd hp this, fun hp => absurd hp.1 (by omega)⟩
      · rw [List.prefix_append_right_inj]
        rw [ih (fun x hx => hd x (by simp [hx])) (fun x hx => hc x (by simp [hx]))]
        simp
      · have := ((encode_less h (hd d (by simp))).append (encodeText cs) (encodeText ds)).not_prefix.2
        exact ⟨fun hp => absurd hp this, fun hp => absurd hp.1 (by omega)⟩

/-- Where an encoded text that is not empty occurs in another, a codepoint begins. -/
theorem encodeText_occurs {ds cs : List Nat} (hd : ∀ d ∈ ds, d < 2 ^ 31) (hc : ∀ c ∈ cs, c < 2 ^ 31) (hne : ds ≠ [])
    {k : Nat} (h : encodeText ds <+: (encodeText cs).drop k) :
    ∃ i, i < cs.length ∧ k = (encodeText (cs.take i)).length ∧ ds <+: cs.drop i := by
  obtain ⟨d, ds', rfl⟩ : ∃ d ds', ds = d :: ds' := by
    cases ds with
    | nil => exact absurd rfl hne
    | cons d ds' => exact ⟨d, ds', rfl⟩
  induction cs generalizing k with
  | nil =>
    rw [encodeText_cons] at h
    have : (encodeText ([] : List Nat)).drop k = [] := by simp [encodeText]
    rw [this, List.prefix_nil] at h
    exact absurd (List.append_eq_nil_iff.mp h).1 (encode_ne_nil d)
  | cons c cs ih =>
    by_cases h0 : k = 0
    · subst h0
      exact ⟨0, by simp, by simp [encodeText], (encodeText_prefix_iff hd hc).mp (by simpa using h)⟩
    · by_cases hk : (encode c).length ≤ k
      · rw [encodeText_cons c cs, List.drop_append, List.drop_of_length_le hk, List.nil_append] at h
        obtain ⟨i, h1, h2, h3⟩ := ih (fun x hx => hc x (by simp [hx])) h
        refine ⟨i + 1, by simpa using h1, ?_, by simpa using h3⟩
        rw [List.take_succ_cons, encodeText_cons, List.length_append]; omega
      · exfalso
        have hu := encode_isUnit d (hd d (by simp))
        have hv := encode_isUnit c (hc c (by simp))
        cases he : encode c with
        | nil => exact encode_ne_nil c he
        | cons l os =>
          rw [he] at hv hk
          have ho : ∀ o ∈ os, IsContinuation o := (IsUnit_cons.mp hv).2
          cases hed : encode d with
          | nil => exact encode_ne_nil d hed
          | cons l' os' =>
            rw [hed] at hu
            rw [encodeText_cons, encodeText_cons, he, hed] at h
            obtain ⟨k, rfl⟩ : ∃ j, k = j + 1 := ⟨k - 1, by omega⟩
            rw [List.cons_append, List.cons_append, List.drop_succ_cons, List.drop_append_of_le_length
              (by simp at hk; omega)] at h
            cases hos : os.drop k with
            | nil =>
              have := congrArg List.length hos
              simp at this hk; omega
            | cons o os'' =>
              rw [hos, List.cons_append, List.cons_prefix_cons] at h
              have hcont := ho o (List.mem_of_mem_drop (by rw [hos]; simp))
              rw [← h.1] at hcont
              have ha := (IsUnit_cons.mp hu).1
              rw [announced_eq, if_neg (by have := hcont.1; omega), if_pos hcont.2] at ha
              omega
end U5e
