import Verif.Spec.UcdText
/-! # Lemmas about the text functions of Model/Script.lean -/
namespace U5e
open Spec

/-! ## Splitting -/

theorem splitOn_ne_nil (c : Nat) (s : Str) : splitOn c s ≠ [] := by
  cases s with
  | nil => simp [splitOn]
  | cons x s => rw [splitOn]; split <;> (try split) <;> simp

theorem splitOn_cons {c : Nat} {w : Str} (hw : c ∉ w) (s : Str) :
    splitOn c (w ++ c :: s) = w :: splitOn c s := by
  induction w with
  | nil => simp [splitOn]
  | cons x w ih =>
    rw [List.mem_cons, not_or] at hw
    rw [List.cons_append, splitOn, if_neg (Ne.symm hw.1), ih hw.2]

theorem splitOn_single {c : Nat} {w : Str} (hw : c ∉ w) : splitOn c w = [w] := by
  induction w with
  | nil => simp [splitOn]
  | cons x w ih =>
    rw [List.mem_cons, not_or] at hw
    rw [splitOn, if_neg (Ne.symm hw.1), ih hw.2]

theorem lines_cons {l : Str} (hl : 10 ∉ l) (s : Str) : lines (l ++ 10 :: s) = l :: lines s := by
  induction l with
  | nil => simp [lines]
  | cons x w ih =>
    rw [List.mem_cons, not_or] at hl
    rw [List.cons_append, lines, if_neg (Ne.symm hl.1), ih hl.2]

theorem reverse_dropWhile_append (l : List Str) : ∃ k, l = (l.reverse.dropWhile List.isEmpty).reverse ++ List.replicate k [] := by
  have h := List.takeWhile_append_dropWhile (p := List.isEmpty) (l := l.reverse)
  refine ⟨(l.reverse.takeWhile List.isEmpty).length, ?_⟩
  have h2 : l.reverse.takeWhile List.isEmpty = List.replicate (l.reverse.takeWhile List.isEmpty).length [] := by
    rw [List.eq_replicate_iff]
    refine ⟨rfl, fun b hb => ?_⟩
    have := List.all_takeWhile (p := List.isEmpty) (l := l.reverse)
    rw [List.all_eq_true] at this
    simpa using this b hb
  have h3 := congrArg List.reverse h
  rw [List.reverse_append, List.reverse_reverse] at h3
  rw [h2, List.reverse_replicate] at h3
  exact h3.symm

theorem dropTrailing_getD (l : List Str) (i : Nat) : (dropTrailing l).getD i [] = l.getD i [] := by
  obtain ⟨k, hk⟩ := reverse_dropWhile_append l
  conv => rhs; rw [hk]
  rw [dropTrailing]
  simp only [List.getD_eq_getElem?_getD, List.getElem?_append]
  split
  · rfl
  · next h =>
    rw [List.getElem?_eq_none (by omega), List.getElem?_replicate]
    split <;> rfl

theorem dropTrailing_self {l : List Str} (h : ∀ x ∈ l, x ≠ []) : dropTrailing l = l := by
  rw [dropTrailing]
  have : l.reverse.dropWhile List.isEmpty = l.reverse := by
    cases hl : l.reverse with
    | nil => rfl
    | cons x xs =>
      rw [List.dropWhile_cons]
      have : x ∈ l := by rw [← List.mem_reverse, hl]; simp
      have := h x this
      simp [this]
  rw [this, List.reverse_reverse]

/-- Splitting what was joined. -/
theorem perlSplit_join {c : Nat} : ∀ {ws : List Str}, ws ≠ [] → (∀ w ∈ ws, c ∉ w) → (∀ w ∈ ws, w ≠ []) →
    perlSplit c (join [c] ws) = ws := by
  intro ws hne hc hw
  have h : splitOn c (join [c] ws) = ws := by
    clear hw
    induction ws with
    | nil => exact absurd rfl hne
    | cons x ws ih =>
      cases ws with
      | nil => rw [join]; exact splitOn_single (hc x (by simp))
      | cons y ys =>
        rw [join, List.append_assoc, List.singleton_append, splitOn_cons (hc x (by simp)),
          ih (by simp) (fun w hw => hc w (by simp [List.mem_cons.mp hw]))]
  rw [perlSplit, h, dropTrailing_self hw]

/-! ## Numbers -/

theorem hexDigit_hexChar {d : Nat} (hd : d < 16) : hexDigit? (hexChar d) = some d := by
  rw [hexChar]
  split
  · rw [hexDigit?, if_pos (by omega)]; simp
  · rw [hexDigit?, if_neg (by omega), if_pos (by omega)]; congr 1; omega

theorem hexFrom_append (s t : Str) (h : ∀ c ∈ s, isHex c = true) (a : Nat) :
    hexFrom a (s ++ t) = hexFrom (hexFrom a s) t := by
  induction s generalizing a with
  | nil => rfl
  | cons c s ih =>
    have hc := h c (by simp)
    rw [isHex, Option.isSome_iff_exists] at hc
    obtain ⟨d, hd⟩ := hc
    rw [List.cons_append, hexFrom, hexFrom, hd]
    exact ih (fun x hx => h x (by simp [hx])) _

theorem hexPad_isHex (k n : Nat) : ∀ c ∈ hexPad k n, isHex c = true := by
  induction k, n using hexPad.induct with
  | case1 k n h =>
    rw [hexPad, if_pos h]
    intro c hc
    rw [List.mem_singleton] at hc
    rw [hc, isHex, hexDigit_hexChar h.1]; rfl
  | case2 k n h ih =>
    rw [hexPad, if_neg h]
    intro c hc
    rcases List.mem_append.mp hc with hc | hc
    · exact ih c hc
    · rw [List.mem_singleton] at hc
      rw [hc, isHex, hexDigit_hexChar (by omega)]; rfl

theorem hex_hexPad (k n : Nat) : hex (hexPad k n) = n := by
  rw [hex]
  induction k, n using hexPad.induct with
  | case1 k n h =>
    rw [hexPad, if_pos h, hexFrom, hexDigit_hexChar h.1]; simp [hexFrom]
  | case2 k n h ih =>
    rw [hexPad, if_neg h, hexFrom_append _ _ (hexPad_isHex _ _), ih, hexFrom, hexDigit_hexChar (by omega)]
    simp only [hexFrom]
    omega

theorem hex_hex4 (n : Nat) : hex (hex4 n) = n := hex_hexPad 4 n

theorem hex4_inj {a b : Nat} (h : hex4 a = hex4 b) : a = b := by
  rw [← hex_hex4 a, h, hex_hex4]

theorem hex4_isHex (n : Nat) : ∀ c ∈ hex4 n, isHex c = true := hexPad_isHex 4 n

theorem hexPad_ne_nil (k n : Nat) : hexPad k n ≠ [] := by
  rw [hexPad]; split <;> simp

theorem hex4_ne_nil (n : Nat) : hex4 n ≠ [] := hexPad_ne_nil 4 n

theorem hexPad_length (k n : Nat) : k ≤ (hexPad k n).length := by
  induction k, n using hexPad.induct with
  | case1 k n h => rw [hexPad, if_pos h]; simp; omega
  | case2 k n h ih => rw [hexPad, if_neg h]; simp; omega

theorem hex4_length (n : Nat) : 4 ≤ (hex4 n).length := hexPad_length 4 n

theorem not_isHex_mem {c : Nat} (h : isHex c = false) (n : Nat) : c ∉ hex4 n := by
  intro hc
  rw [hex4_isHex n c hc] at h
  exact absurd h (by simp)

theorem dec_digit (n : Nat) : ∀ c ∈ dec n, 48 ≤ c ∧ c ≤ 57 := by
  induction n using dec.induct with
  | case1 n h => rw [dec, if_pos h]; simp; omega
  | case2 n h ih =>
    rw [dec, if_neg h]
    intro c hc
    rcases List.mem_append.mp hc with hc | hc
    · exact ih c hc
    · rw [List.mem_singleton] at hc; omega

theorem numFrom_append (s t : Str) (h : ∀ c ∈ s, 48 ≤ c ∧ c ≤ 57) (a : Nat) :
    numFrom a (s ++ t) = numFrom (numFrom a s) t := by
  induction s generalizing a with
  | nil => rfl
  | cons c s ih =>
    rw [List.cons_append, numFrom, numFrom, if_pos (h c (by simp)), if_pos (h c (by simp))]
    exact ih (fun x hx => h x (by simp [hx])) _

theorem num_dec (n : Nat) : num (dec n) = n := by
  rw [num]
  induction n using dec.induct with
  | case1 n h => rw [dec, if_pos h, numFrom, if_pos (by omega), numFrom]; omega
  | case2 n h ih =>
    rw [dec, if_neg h, numFrom_append _ _ (dec_digit _), ih, numFrom, if_pos (by omega), numFrom]; omega

theorem dec_ne_nil (n : Nat) : dec n ≠ [] := by
  rw [dec]; split <;> simp

theorem dec_inj {a b : Nat} (h : dec a = dec b) : a = b := by
  rw [← num_dec a, h, num_dec]

theorem perlTrue_dec (n : Nat) : perlTrue (dec n) = decide (n ≠ 0) := by
  by_cases h : n = 0
  · subst h; rw [dec]; decide
  · have h1 : dec n ≠ [48] := fun e => h (by
      have : dec 0 = [48] := by rw [dec]; rfl
      rw [← this] at e; exact dec_inj e)
    simp [perlTrue, dec_ne_nil, h1, h]

end U5e
