import Verif.Model.Examples
import Verif.Spec.Printf
import Verif.Properties.Safety
import Verif.Properties.Utf8Read
import Verif.Properties.GraphemeAt
import Verif.Properties.Normalize
import Verif.Properties.NormalizeUtf8
import Verif.Properties.History
/-!
# C57: the example programs
-/
namespace U5e
open Spec

/-! ### `%06llx` -/

theorem printVal_hexChar (d : Nat) (h : d < 16) : hexVal (hexChar d) = some d := by
  have : ∀ d : Fin 16, hexVal (hexChar d.val) = some d.val := by decide
  exact this ⟨d, h⟩

theorem hexValue_snoc (s : List Char) (n d : Nat) (hs : hexValue s = some n) (hd : d < 16) :
    hexValue (s ++ [hexChar d]) = some (n * 16 + d) := by
  cases s with
  | nil =>
    simp only [hexValue, Option.some.injEq] at hs
    subst hs
    simp [hexValue, printVal_hexChar d hd]
  | cons a s =>
    simp only [List.cons_append, hexValue] at hs ⊢
    rw [← List.cons_append, List.foldl_append, hs]
    simp [printVal_hexChar d hd]

theorem printPad_value (w n : Nat) : hexValue (printPad w n) = some (n % 16 ^ w) := by
  induction w generalizing n with
  | zero => simp [printPad, hexValue, Nat.mod_one]
  | succ w ih =>
    rw [printPad, hexValue_snoc _ _ _ (ih (n / 16)) (Nat.mod_lt _ (by omega))]
    congr 1
    rw [Nat.pow_succ, Nat.mul_comm (16 ^ w) 16, Nat.mod_mul]
    omega

theorem printPad_length (w n : Nat) : (printPad w n).length = w := by
  induction w generalizing n with
  | zero => rfl
  | succ w ih => simp [printPad, ih]

theorem printPad_head (w n : Nat) : (printPad (w + 1) n).head? = some (hexChar (n / 16 ^ w % 16)) := by
  induction w generalizing n with
  | zero => simp [printPad]
  | succ w ih =>
    rw [printPad, List.head?_append, ih (n / 16), Nat.div_div_eq_div_mul, Nat.pow_succ, Nat.mul_comm 16]; rfl

theorem hexWidth_spec (n : Nat) (h : n < 2 ^ 64) :
    6 ≤ hexWidth n ∧ n < 16 ^ hexWidth n ∧ (6 < hexWidth n → 16 ^ (hexWidth n - 1) ≤ n) := by
  have e : (2 : Nat) ^ 64 = 16 ^ 16 := by decide
  rw [e] at h
  unfold hexWidth
  cases hf : (List.range 17).find? fun w => decide (6 ≤ w ∧ n < 16 ^ w) with
  | none =>
    have := List.find?_eq_none.mp hf 16 (by simp)
    simp only [decide_eq_true_eq, not_and, Nat.not_lt] at this
    exact absurd (this (by omega)) (by omega)
  | some w =>
    have h1 := List.find?_some hf
    simp only [decide_eq_true_eq] at h1
    refine ⟨h1.1, h1.2, fun h6 => ?_⟩
    simp only [Option.getD_some] at h6 ⊢
    obtain ⟨_, as, bs, hsp, hno⟩ := List.find?_eq_some_iff_append.mp hf
    have hw : as.length = w := by
      have h2 : (List.range 17)[as.length]? = some w := by rw [hsp]; simp
      obtain ⟨hl, h3⟩ := List.getElem?_eq_some_iff.mp h2
      simpa using h3
    have h4 : w - 1 ∈ as := by
      have h2 : (List.range 17)[w - 1]? = as[w - 1]? := by
        rw [hsp, List.getElem?_append_left (by omega)]
      have hl : as.length < 17 := by
        have := congrArg List.length hsp; simp at this; omega
      rw [List.getElem?_range (by omega)] at h2
      exact List.mem_of_getElem? h2.symm
    have h5 := hno (w - 1) h4
    simp only [Bool.not_eq_true', decide_eq_false_iff_not, not_and, Nat.not_lt] at h5
    exact h5 (by omega)

/-- C57: the programs print a codepoint as `printf` promises for `%06llx` (a negative value as 2^64 more), and
… -/
theorem C57_format (c : Int) : Hex6 (c % 2 ^ 64).toNat (printHex c) := by
  have hn : (c % 2 ^ 64).toNat < 2 ^ 64 := by omega
  obtain ⟨h1, h2, h3⟩ := hexWidth_spec _ hn
  unfold printHex
  refine ⟨?_, ?_, ?_⟩
  · simp only []
    rw [printPad_value, Nat.mod_eq_of_lt h2]
  · simp only [printPad_length]; exact h1
  · simp only [printPad_length]
    intro h
    have h3 := h3 h
    generalize (c % 2 ^ 64).toNat = n at *
    generalize hexWidth n = w at *
    obtain ⟨w, rfl⟩ : ∃ v, w = v + 1 := ⟨w - 1, by omega⟩
    rw [printPad_head]
    rw [Nat.add_sub_cancel] at h3
    have h4 : n / 16 ^ w % 16 = n / 16 ^ w := by
      rw [Nat.mod_eq_of_lt]
      rw [Nat.div_lt_iff_lt_mul (Nat.pow_pos (by omega)), Nat.mul_comm, ← Nat.pow_succ]
      exact h2
    have h5 : 0 < n / 16 ^ w := Nat.div_pos h3 (Nat.pow_pos (by omega))
    have h6 : n / 16 ^ w < 16 := by rw [← h4]; exact Nat.mod_lt _ (by omega)
    rw [h4]
    generalize n / 16 ^ w = d at *
    have : ∀ d : Fin 16, 0 < d.val → some (hexChar d.val) ≠ some '0' := by decide
    exact this ⟨d, h6⟩ h5

/-- … different codepoints as different texts. -/
theorem C57_format_faithful (a b : Nat) (ha : a < 2 ^ 64) (hb : b < 2 ^ 64) (h : printHex a = printHex b) : a = b := by
  have h1 := (C57_format a).value
  rw [h, (C57_format b).value] at h1
  have := Option.some.inj h1
  omega

example : printHex 0x1F600 = "01f600".toList ∧ printHex 0x7FFFFFFF = "7fffffff".toList ∧
    printHex (-1) = "ffffffffffffffff".toList := by decide +kernel

/-! ### The programs -/

/-- C57, examples/simple_iteration.cpp: for any arguments in UTF-8, one line per argument with its codepoints in
order. -/
theorem C57_simple_iteration (args : List (List Nat)) (h : ∀ a ∈ args, ∀ c ∈ a, c < 2 ^ 31) (fuel : Nat)
    (hf : ∀ a ∈ args, a.length < fuel) :
    exSimpleIteration fuel (args.map encodeText) =
      .ok (args.flatMap fun a => (a.flatMap fun c : Nat => " U+".toList ++ printHex (c : Int) ++ " ".toList) ++ "\n".toList) := by
  induction args with
  | nil => rfl
  | cons a args ih =>
    have hw := C01_forward_iteration_post a (h a (by simp)) [] [] 0 (by decide) fuel (hf a (by simp))
    simp only [List.nil_append, List.length_nil, Nat.zero_add] at hw
    simp only [List.map_cons, exSimpleIteration, hw, Res.bind_ok,
      ih (fun b hb => h b (by simp [hb])) (fun b hb => hf b (by simp [hb])), Res.pure_eq, List.flatMap_cons]
    congr 2
    rw [List.flatMap_map]; rfl

/-- Instance: two arguments, "Olá€" and the empty one. -/
example := C57_simple_iteration [[0x4F, 0x6C, 0xE1, 0x20AC], []] (by decide) 5 (by decide)

/-- C57: given one argument of arbitrary octets, simple_iteration runs into undefined behaviour exactly if the
argument starts with a continuation octet or the iterator comes to rest on 0xFF eight or more octets before
the end. -/
theorem C57_simple_iteration_any (t : List UInt8) :
    (∃ fuel, exSimpleIteration fuel [t] = .ub) ↔
      (∃ o, t.head? = some o ∧ IsContinuation o) ∨
      ∃ s, Rests t s ∧ t[s]? = some 0xFF ∧ s + 8 ≤ t.length := by
  rw [← C06_exact]
  refine exists_congr fun fuel => ?_
  rw [exSimpleIteration, C01_post_increment]
  cases walk (t ++ [0]) t.length fuel 0 <;> simp [exSimpleIteration]

/-- What grapheme_iteration prints for one grapheme. -/
def bracketed (g : List Int) : List Char :=
  "[".toList ++ g.flatMap (fun c => " U+".toList ++ printHex c) ++ " ]".toList

theorem exGraphemeLoop_eq {I : CpIter} {gfuel b e : Nat} {z : GIter} (hz : graphemeEnd I gfuel b e = .ok z)
    {g : GIter} {xs : List Grapheme} (h : Traverses (graphemeInput I gfuel) g z xs) (fuel : Nat)
    (hf : xs.length < fuel) (gs : List (List Int))
    (hgs : gs.length = xs.length ∧ ∀ (i : Nat) (x : Grapheme) c, xs[i]? = some x → gs[i]? = some c →
      readRange I x.last gfuel x.first = .ok c) :
    exGraphemeLoop I gfuel b e fuel g = .ok (gs.flatMap bracketed) := by
  induction h generalizing fuel gs with
  | done h =>
    cases fuel with
    | zero => simp at hf
    | succ fuel =>
      obtain rfl : gs = [] := List.length_eq_zero_iff.mp hgs.1
      simp only [graphemeInput] at h
      rename_i s t
      cases hr : s.eqG I gfuel t with
      | ok r => rw [hr] at h; simp at h; subst h; simp [exGraphemeLoop, hz, hr]
      | ub => rw [hr] at h; simp at h
      | tmo => rw [hr] at h; simp at h
  | step h1 h2 h3 h4 ih =>
    cases fuel with
    | zero => simp at hf
    | succ fuel =>
      rename_i s s' s'' t x xs
      cases gs with
      | nil => simp at hgs
      | cons c gs =>
        simp only [graphemeInput] at h1 h2 h3
        cases hr : s.eqG I gfuel t with
        | ok r =>
          rw [hr] at h1
          simp at h1
          subst h1
          obtain ⟨hx, rfl⟩ := Prod.mk.inj (Res.ok.inj h2)
          have hc := hgs.2 0 x c rfl rfl
          rw [← hx] at hc
          simp only [exGraphemeLoop, hz, hr, Res.bind_ok, Bool.false_eq_true, if_false, hc, h3]
          rw [ih hz fuel (by simpa using hf) gs ⟨by simpa using hgs.1, fun i y d hy hd => hgs.2 (i + 1) y d hy hd⟩]
          simp [bracketed]
        | ub => rw [hr] at h1; simp at h1
        | tmo => rw [hr] at h1; simp at h1

theorem segPos_read {I : CpIter} {pos : Nat → Nat} {cs : List Int} (S : Sim I pos cs) (fuel : Nat)
    (hf : cs.length < fuel) (gs : List (List Int)) (i : Nat) (hi : i ≤ cs.length)
    (hg : gs.flatten = cs.drop i) :
    ∀ (k : Nat) (x : Grapheme) (c : List Int), (segPos pos i gs)[k]? = some x → gs[k]? = some c → readRange I x.last fuel x.first = .ok c := by
  induction gs generalizing i with
  | nil => intro k x c h; simp [segPos] at h
  | cons g gs ih =>
    have hd : cs.drop (i + g.length) = gs.flatten := by
      rw [← List.drop_drop, ← hg, List.flatten_cons, List.drop_left']
      rfl
    have hle : i + g.length ≤ cs.length := by
      have := congrArg List.length hg
      simp only [List.flatten_cons, List.length_append, List.length_drop] at this
      omega
    intro k x c hx hc
    cases k with
    | zero =>
      simp only [segPos, List.getElem?_cons_zero, Option.some.injEq] at hx hc
      subst hx hc
      rw [readRange_eq S i (i + g.length) (by omega) hle fuel (by omega)]
      congr 1
      have : cs.take (i + g.length) = cs.take i ++ g := by
        rw [List.take_add, ← hg, List.flatten_cons, List.take_left']
        rfl
      rw [this, List.drop_left']
      simp; omega
    | succ k => exact ih (i + g.length) hle hd.symm k x c hx hc

/-- C57, examples/grapheme_iteration.cpp: for any arguments in UTF-8, one line per argument with its graphemes
in order, each in brackets. -/
theorem C57_grapheme_iteration (args : List (List Nat × List (List Int)))
    (h : ∀ a ∈ args, (∀ c ∈ a.1, c < 2 ^ 31) ∧ IsSegmentation Breaks (a.1.map Int.ofNat) a.2)
    (fuel : Nat) (hf : ∀ a ∈ args, a.1.length < fuel) :
    exGraphemeIteration fuel (args.map fun a => encodeText a.1) =
      .ok (args.flatMap fun a => a.2.flatMap bracketed ++ "\n".toList) := by
  induction args with
  | nil => rfl
  | cons a args ih =>
    obtain ⟨h31, hseg⟩ := h a (by simp)
    have hseg := segments_unique hseg
    have hfa := hf a (by simp)
    have e3 : [] ++ encodeText a.1 ++ (encode 0 ++ []) = encodeText a.1 ++ [0] := by simp [encode]
    obtain ⟨S, hend⟩ := sim_encodeText a.1 h31 [] 0 (by decide) []
    rw [e3] at S hend
    have hz := graphemeEnd_sim S fuel (by simpa) 0 (by simpa using hend) (fun a _ => brk_zero a)
    have hb := graphemeBegin_sim S fuel (by simpa)
    have ht := traverses_graphemes S fuel (by simpa) 0 (Nat.zero_le _)
    rw [List.drop_zero, Nat.zero_add] at ht
    rw [← hseg] at ht
    have hlen : a.2.length ≤ a.1.length := by
      rw [hseg]; have := segments_length_le (a.1.map Int.ofNat); simpa using this
    have hl := exGraphemeLoop_eq hz ht fuel (by rw [segPos_length]; omega) a.2
      ⟨(segPos_length _ _ _).symm, segPos_read S fuel (by simpa) a.2 0 (Nat.zero_le _) (by
        rw [hseg, segments_flatten]; simp)⟩
    rw [List.length_map, upos_zero, upos_encode_end, List.length_nil, Nat.zero_add] at hl hb
    simp only [List.map_cons, exGraphemeIteration, hb, Res.bind_ok, hl,
      ih (fun b hb => h b (by simp [hb])) (fun b hb => hf b (by simp [hb])), Res.pure_eq, List.flatMap_cons]

/-- Instance: "é\r\n" with a combining acute accent. -/
example : exGraphemeIteration 5 [encodeText [0x65, 0x301, 0xD, 0xA]] =
    .ok (([[0x65, 0x301], [0xD, 0xA]].flatMap bracketed ++ "\n".toList) ++ []) :=
  C57_grapheme_iteration [([0x65, 0x301, 0xD, 0xA], [[0x65, 0x301], [0xD, 0xA]])]
    (by
      intro a ha
      obtain rfl := List.mem_singleton.mp ha
      exact ⟨by decide, segmentation_of (by decide +kernel)⟩)
    5 (by decide)

/-- C57, examples/normalization_form_{c,d,kc,kd}.cpp: for any arguments in UTF-8 whose normal form the UTF-8
encoder can write, one line per argument with the codepoints of the normal form (the form of each grapheme,
one after the other), for every conforming `std::sort`. -/
theorem C57_normalization (F : Form) (sort : SortFn) (hs : ConformingSort sort)
    (args : List (List Nat × List Int))
    (h : ∀ a ∈ args, (∀ c ∈ a.1, c < 2 ^ 31) ∧ ((a.1.map Int.ofNat).flatMap (full F.map)).length < 2 ^ 31 ∧
      (∃ gs, IsSegmentation Breaks (a.1.map Int.ofNat) gs ∧ a.2 = gs.flatMap ((libraryData sort).normal F)) ∧
      ∀ x ∈ a.2, ∃ n : Nat, x = n ∧ Encodable n)
    (fuel : Nat) (hf : ∀ a ∈ args, a.1.length < fuel ∧ a.2.length < fuel) :
    exNormalization F sort fuel (args.map fun a => encodeText a.1) =
      .ok (args.flatMap fun a => (a.2.flatMap fun c => " U+".toList ++ printHex c) ++ "\n".toList) := by
  induction args with
  | nil => rfl
  | cons a args ih =>
    obtain ⟨h31, hb, ⟨gs, hseg, ha2⟩, henc⟩ := h a (by simp)
    have hfa := hf a (by simp)
    obtain rfl := segments_unique hseg
    obtain ⟨ns, hn32, hn8⟩ := C38_encodings_agree F sort hs a.1 h31 fuel hfa.1 hb []
    rw [normalize32_eq F hs _ [] fuel (by simpa using hfa.1) hb] at hn32
    have htext : ns = a.2 := by
      have := congrArg Prod.snd (Res.ok.inj hn32)
      simp only [List.nil_append] at this
      rw [← this, ha2, Form.text]
      congr 1
      funext g; rw [libraryData_normal]
    rw [htext] at hn8
    have hn8 := hn8 henc
    rw [List.nil_append, normalize8] at hn8
    have hns : ∀ c ∈ a.2.map Int.toNat, c < 2 ^ 31 := by
      intro c hc
      obtain ⟨x, hx, rfl⟩ := List.mem_map.mp hc
      obtain ⟨n, rfl, hn⟩ := henc x hx
      have := encodable_lt hn
      simpa using this
    have hints : (a.2.map Int.toNat).map Int.ofNat = a.2 := ints_toNat henc
    have e3 : [] ++ encodeText (a.2.map Int.toNat) ++ (encode 0 ++ []) = encodeText (a.2.map Int.toNat) ++ [0] := by
      simp [encode]
    obtain ⟨S, _⟩ := sim_encodeText _ hns [] 0 (by decide) []
    rw [e3, hints] at S
    have hr := readRange_eq S 0 a.2.length (Nat.zero_le _) (Nat.le_refl _) fuel (by omega)
    have hl : a.2.length = (a.2.map Int.toNat).length := by simp
    rw [upos_zero, List.drop_zero, List.take_length, List.length_nil] at hr
    rw [hl, upos_encode_end, Nat.zero_add] at hr
    simp only [List.map_cons, exNormalization, hn8, Res.bind_ok, hr,
      ih (fun b hb => h b (by simp [hb])) (fun b hb => hf b (by simp [hb])), Res.pure_eq, List.flatMap_cons]

/-- Instance: "ﬁe\u0301" in NFKC. -/
example : exNormalization .KC insSort 5 [encodeText [0xFB01, 0x65, 0x301]] =
    .ok ((([0x66, 0x69, 0xE9] : List Int).flatMap fun c => " U+".toList ++ printHex c) ++ "\n".toList ++ []) :=
  C57_normalization .KC insSort insSort_stable.1 [([0xFB01, 0x65, 0x301], [0x66, 0x69, 0xE9])]
    (by
      intro a ha
      obtain rfl := List.mem_singleton.mp ha
      refine ⟨by decide, by decide +kernel, ⟨[[0xFB01], [0x65, 0x301]], segmentation_of (by decide +kernel), ?_⟩, ?_⟩
      · decide +kernel
      · intro x hx
        simp only [List.mem_cons, List.not_mem_nil, or_false] at hx
        rcases hx with rfl | rfl | rfl
        · exact ⟨0x66, rfl, by decide⟩
        · exact ⟨0x69, rfl, by decide⟩
        · exact ⟨0xE9, rfl, by decide⟩)
    5 (by decide)

/-- C57, examples/smallest_code.cpp: the exit status is the low octet of the first codepoint of the first
argument (0 for an empty one); without argument it is undefined. -/
theorem C57_smallest_code (c : Nat) (cs : List Nat) (rest : List (List UInt8)) (h : ∀ d ∈ c :: cs, d < 2 ^ 31) :
    exSmallestCode (encodeText (c :: cs) :: rest) = .ok (c % 256) ∧
    exSmallestCode ([] :: rest) = .ok 0 ∧ exSmallestCode [] = .ub := by
  refine ⟨?_, rfl, rfl⟩
  obtain ⟨S, _⟩ := sim_encodeText (c :: cs) h [] 0 (by decide) []
  have e3 : [] ++ encodeText (c :: cs) ++ (encode 0 ++ []) = encodeText (c :: cs) ++ [0] := by simp [encode]
  rw [e3] at S
  have hd := S.deref 0 c rfl
  rw [upos_zero] at hd
  have hd : cur (encodeText (c :: cs) ++ [0]) 0 = .ok ((c : Int), 0) := hd
  simp only [exSmallestCode, hd, Res.bind_ok, Res.pure_eq]
  congr 1

/-- Instance: the argument "€" and any others. -/
example (rest : List (List UInt8)) : exSmallestCode (encodeText [0x20AC] :: rest) = .ok 0xAC :=
  (C57_smallest_code 0x20AC [] rest (by decide)).1

/-- C57, the utf32ne normalization examples, which have no input: what they print, for every sort that is
stable (form D and C: for every conforming sort). -/
theorem C57_normalization_utf32 (sort : SortFn) (hs : ConformingSort sort) (fuel : Nat) (hf : 6 < fuel) :
    exNormalization32 .D sort fuel = .ok " U+000041 U+000308 U+00fb03 U+00006e".toList ∧
    exNormalization32 .C sort fuel = .ok " U+0000c4 U+00fb03 U+00006e".toList ∧
    (StableSort sort →
      exNormalization32 .KD sort fuel = .ok " U+000041 U+000308 U+000066 U+000066 U+000069 U+00006e".toList ∧
      exNormalization32 .KC sort fuel = .ok " U+0000c4 U+000066 U+000066 U+000069 U+00006e".toList) := by
  have hgs : IsSegmentation Breaks [0xC4, 0xFB03, 0x6E] [[0xC4], [0xFB03], [0x6E]] := by
    have := segments_breaks [0xC4, 0xFB03, 0x6E]
    have e : segments isGraphemeBoundary [0xC4, 0xFB03, 0x6E] = [[0xC4], [0xFB03], [0x6E]] := by decide +kernel
    rwa [e] at this
  have key : ∀ (F : Form) (out : List Int), normalize32 F sort fuel [0xC4, 0xFB03, 0x6E] [] = .ok ((out.length : Int), out) →
      out.length < fuel →
      exNormalization32 F sort fuel = .ok (out.flatMap (fun c => " U+".toList ++ printHex c)) := by
    intro F out h hl
    rw [normalize32] at h
    have S := sim_utf32 [] out [0]
    have hr := readRange_eq S 0 out.length (Nat.zero_le _) (Nat.le_refl _) fuel (by omega)
    rw [List.drop_zero, List.take_length] at hr
    simp only [List.nil_append, List.length_nil, Nat.zero_add, Nat.add_zero] at hr
    simp only [exNormalization32, h, Res.bind_ok, hr, Res.pure_eq]
  have hb : ∀ F : Form, (([0xC4, 0xFB03, 0x6E] : List Int).flatMap (full F.map)).length < 2 ^ 31 := by
    intro F; cases F <;> decide +kernel
  have htxt : ∀ (F : Form) (out : List Int), F.text insSort [0xC4, 0xFB03, 0x6E] = out →
      normalize32 F insSort fuel [0xC4, 0xFB03, 0x6E] [] = .ok ((out.length : Int), out) := by
    intro F out h
    rw [normalize32_eq F insSort_stable.1 _ _ fuel (by simp; omega) (hb F), h]; rfl
  refine ⟨?_, ?_, fun hst => ⟨?_, ?_⟩⟩
  · rw [key .D [0x41, 0x308, 0xFB03, 0x6E] _ (by simp; omega)]
    · exact congrArg Res.ok (by decide +kernel)
    · rw [C37_distinct_classes .D sort hs _ _ _ hgs (by decide +kernel) fuel (by simp; omega) (hb _)]
      exact htxt .D _ (by decide +kernel)
  · rw [key .C [0xC4, 0xFB03, 0x6E] _ (by simp; omega)]
    · exact congrArg Res.ok (by decide +kernel)
    · rw [C37_distinct_classes .C sort hs _ _ _ hgs (by decide +kernel) fuel (by simp; omega) (hb _)]
      exact htxt .C _ (by decide +kernel)
  · rw [key .KD [0x41, 0x308, 0x66, 0x66, 0x69, 0x6E] _ (by simp; omega)]
    · exact congrArg Res.ok (by decide +kernel)
    · rw [C37_short_graphemes .KD 16 sort ⟨hs, fun lt hlt l _ x => hst.2 lt hlt l x⟩ _ _ _ hgs (by decide +kernel) fuel (by simp; omega) (hb _)]
      exact htxt .KD _ (by decide +kernel)
  · rw [key .KC [0xC4, 0x66, 0x66, 0x69, 0x6E] _ (by simp; omega)]
    · exact congrArg Res.ok (by decide +kernel)
    · rw [C37_short_graphemes .KC 16 sort ⟨hs, fun lt hlt l _ x => hst.2 lt hlt l x⟩ _ _ _ hgs (by decide +kernel) fuel (by simp; omega) (hb _)]
      exact htxt .KC _ (by decide +kernel)

/-- Instance. -/
example := C57_normalization_utf32 insSort insSort_stable.1 7 (by decide)

/-- C57, the truncation examples, which have no input: both write a text without the grapheme that was cut. -/
theorem C57_truncation : exTruncateCodepoint = .ok "Ola".toUTF8.toList ∧
    exTruncateGrapheme 6 = .ok "Ol".toUTF8.toList := by decide +kernel

/-- Non-vacuity: the programs run on the arguments "Olá" and "e\u0301\r\n". -/
example : exSimpleIteration 9 ([[0x4F, 0x6C, 0xE1], []].map encodeText) =
      .ok " U+00004f  U+00006c  U+0000e1 \n\n".toList ∧
    exGraphemeIteration 9 ([[0x65, 0x301, 0xD, 0xA]].map encodeText) =
      .ok "[ U+000065 U+000301 ][ U+00000d U+00000a ]\n".toList ∧
    exNormalization .C insSort 9 ([[0x65, 0x301], [0xC4]].map encodeText) =
      .ok " U+0000e9\n U+0000c4\n".toList ∧
    exSmallestCode [encodeText [0x20AC]] = .ok 0xAC := by decide +kernel

/-- C57_normalization does not extend to arguments whose normal form the encoder cannot write: form C of
U+0915 is U+0915, but the program prints something else. -/
theorem C57_normalization_limit : exNormalization .C insSort 9 [encodeText [0x915]] ≠
    .ok (" U+000915\n".toList) := by decide +kernel

end U5e
