import Verif.Properties.Fixpoints
/-! # C38 (exact), C52: normalizing into a UTF-8 string -/
namespace U5e
open Spec

variable {I : CpIter} {pos : Nat → Nat} {cs : List Int}

theorem Res.bind_assoc' {α β γ : Type} (x : Res α) (f : α → Res β) (g : β → Res γ) :
    (x >>= f) >>= g = x >>= fun a => f a >>= g := by cases x <;> rfl

/-- Folding an operation that appends `f g` and returns its length. -/
theorem foldlM_append (append : AppendFn β)
    (happ : ∀ o a b, append o (a ++ b) = (append o a >>= fun o => append o b))
    (hnil : ∀ o, append o [] = .ok o)
    (op : Grapheme → β → Res (Int × β)) (f : List Int → List Int) (gs : List (List Int)) (i : Nat)
    (hcs : cs.drop i = gs.flatten) (hi : i ≤ cs.length)
    (hop : ∀ g ∈ gs, ∀ i, (cs.drop i).take g.length = g → i + g.length ≤ cs.length → ∀ o,
      op ⟨pos i, pos (i + g.length)⟩ o = (append o (f g) >>= fun o => .ok (((f g).length : Int), o)))
    (k : Int) (out : β) (hk : 0 ≤ k) (hb : k + (gs.flatMap f).length ≤ 2147483647) :
    (segPos pos i gs).foldlM (accum op) (k, out) =
      (append out (gs.flatMap f) >>= fun o => .ok (k + (gs.flatMap f).length, o)) := by
  induction gs generalizing i k out with
  | nil => simp [segPos, hnil]
  | cons g gs ih =>
    have hlen := congrArg List.length hcs
    rw [List.length_drop, List.flatten_cons, List.length_append] at hlen
    have h1 : (cs.drop i).take g.length = g := by rw [hcs]; simp
    have h2 : cs.drop (i + g.length) = gs.flatten := by rw [← List.drop_drop, hcs]; simp
    rw [List.flatMap_cons, List.length_append] at hb
    rw [segPos, List.foldlM_cons, List.flatMap_cons, happ, Res.bind_assoc']
    simp only [accum]
    rw [hop g (by simp) i h1 (by omega) out, Res.bind_assoc', Res.bind_assoc']
    congr 1
    funext o
    simp only [Res.bind_ok]
    rw [addInt_ok (by omega) (by omega), Res.bind_ok, Res.pure_eq, Res.bind_ok,
      ih (i + g.length) h2 (by omega) (fun x hx => hop x (by simp [hx])) _ _ (by omega) (by omega)]
    rw [List.length_append]
    congr 1; funext o'; congr 2; omega

/-- Normalizing a text with any output type whose append distributes over concatenation. -/
theorem Form.text_exact (F : Form) (S : Sim I pos cs) (fuel : Nat) (hf : cs.length < fuel)
    (z : Int) (hz : I.deref (pos cs.length) = .ok (z, pos cs.length))
    (hzb : ∀ a, cs.getLast? = some a → isGraphemeBoundary a z = true)
    {sort : SortFn} (hs : ConformingSort sort) (append : AppendFn β)
    (happ : ∀ o a b, append o (a ++ b) = (append o a >>= fun o => append o b))
    (hnil : ∀ o, append o [] = .ok o)
    (hb : (decompose F.map cs).length ≤ 2147483647) (out : β) :
    normalizeText (F.run sort append) I fuel (pos 0) (pos cs.length) out =
      (append out (F.text sort cs) >>= fun o => .ok (((F.text sort cs).length : Int), o)) := by
  have hle := F.text_length_le hs cs
  rw [normalizeText, filterGraphemes_sim S fuel hf z hz hzb]
  have := foldlM_append (pos := pos) (cs := cs) append happ hnil (F.run sort append I fuel)
    (F.result sort) (graphemes cs) 0 (by rw [segments_flatten]; rfl) (Nat.zero_le _) ?_ 0 out (by omega)
    (by rw [Form.text] at hle; omega)
  · rw [Int.zero_add] at this
    exact this
  · intro g hg i h1 h2 o
    have hgl : (decompose F.map g).length ≤ (decompose F.map cs).length := by
      rw [decompose, decompose, ← flatMap_flatMap_segments isGraphemeBoundary _ cs]
      exact mem_flatMap_length (f := fun g => g.flatMap (full F.map)) hg
    exact F.run_sim S fuel hf hs append i g h1 h2 (by omega) o

theorem append8_append (o : List Octet) (a b : List Int) :
    append8 o (a ++ b) = (append8 o a >>= fun o => append8 o b) := by
  rw [append8, List.map_append]
  show appendFromUtf32 _ _ = appendFromUtf32 _ _ >>= fun o => appendFromUtf32 o _
  generalize a.map (BitVec.ofInt 32) = xs
  generalize b.map (BitVec.ofInt 32) = ys
  induction xs generalizing o with
  | nil => rfl
  | cons x xs ih =>
    rw [List.cons_append, appendFromUtf32, appendFromUtf32, Res.bind_assoc']
    congr 1; funext r; exact ih _

/-- C38, exact and unrestricted: normalizing UTF-8 into a UTF-8 string does exactly what normalizing the
same codepoints as utf32ne and then writing the result with append_from_utf32ne does - same octets,
same undefined behaviour, same count. -/
theorem C38_exact (F : Form) (sort : SortFn) (hs : ConformingSort sort) (cs : List Nat)
    (h : ∀ c ∈ cs, c < 2 ^ 31) (fuel : Nat) (hf : cs.length < fuel)
    (hb : ((cs.map Int.ofNat).flatMap (full F.map)).length < 2 ^ 31) (out : List UInt8) :
    ∃ ns : List Int, normalize32 F sort fuel (cs.map Int.ofNat) [] = .ok ((ns.length : Int), ns) ∧
      normalize8 F sort fuel cs out =
        (append8 out ns >>= fun o => .ok ((ns.length : Int), o)) := by
  refine ⟨F.text sort (cs.map Int.ofNat), ?_, ?_⟩
  · rw [normalize32_eq F hs _ [] fuel (by simpa) hb]; rfl
  · obtain ⟨S, hend⟩ := sim_encodeText cs h [] 0 (by decide) []
    have e3 : [] ++ encodeText cs ++ (encode 0 ++ []) = encodeText cs ++ [0] := by simp [encode]
    rw [e3] at S hend
    have := F.text_exact S fuel (by simpa) 0 (by simpa using hend) (fun a _ => brk_zero a) hs append8
      append8_append (fun _ => rfl) (by rw [decompose]; omega) out
    rw [List.length_map, List.length_nil, upos_zero, upos_encode_end, Nat.zero_add] at this
    exact this

/-- Instance: a text with U+0915, which is written wrongly. -/
example := C38_exact .C insSort insSort_stable.1 [0x75, 0x308, 0x915] (by decide) 4 (by decide) (by decide +kernel)
  [0x41]

theorem appendFromUtf32_ub (out : List UInt8) (vs : List (BitVec 32)) :
    (appendFromUtf32 out vs = .ub ↔ ∃ v ∈ vs, v = 0#32 ∨ v.toInt < 0 ∨ OverReads v.toNat) ∧
      appendFromUtf32 out vs ≠ .tmo := by
  induction vs generalizing out with
  | nil => simp [appendFromUtf32]
  | cons v vs ih =>
    have h1 := C11_scratch_buffer out v
    simp only [appendFromUtf32] at h1 ⊢
    cases he : encodeOne v with
    | ub => rw [he] at h1; simp at h1 ⊢; exact .inl h1
    | tmo => rw [he] at h1; simp at h1
    | ok o =>
      rw [he] at h1
      simp only [Res.bind_ok, Res.pure_eq] at h1 ⊢
      have h2 := ih (out ++ o)
      refine ⟨?_, h2.2⟩
      rw [h2.1]
      have : ¬ (v = 0#32 ∨ v.toInt < 0 ∨ OverReads v.toNat) := fun hc => by
        have := h1.1.mpr hc; simp at this
      simp [this]

theorem ofInt_toNat {x : Int} (h0 : 0 ≤ x) (h : x < 2 ^ 31) : (BitVec.ofInt 32 x).toNat = x.toNat := by
  rw [BitVec.toNat_ofInt, Int.emod_eq_of_lt h0 (by omega)]

/-! ### Normal forms stay inside Unicode -/

/-- A Unicode scalar value other than U+0000. -/
def Scalar (x : Int) : Prop := 0 < x ∧ x < 0x110000 ∧ ¬ (0xD800 ≤ x ∧ x < 0xE000)

def scalarB (n : Nat) : Bool := (Nat.blt n 0xD800 || Nat.ble 0xE000 n) && Nat.blt n 0x110000

theorem scalarB_spec {n : Nat} (h : scalarB n = true) (h0 : n ≠ 0) : Scalar n := by
  simp only [scalarB, Bool.and_eq_true, Bool.or_eq_true, Nat.blt_eq, Nat.ble_eq] at h
  unfold Scalar; omega

theorem dec_scalar : Data.decTree.all (·.all scalarB) = true := by decide +kernel
theorem kdec_scalar : Data.kdecTree.all (·.all scalarB) = true := by decide +kernel
theorem comp_scalar : Data.compTree.all (·.all fun n => scalarB n && Nat.blt 0 n) = true := by decide +kernel

theorem full_scalar {map : Int → Option (List Int)} {tab : List (List Nat)}
    (hm : ∀ c m, map c = some m → ∃ (k : Nat) (l : List Nat), c = k ∧ m = l.map Int.ofNat ∧ k :: l ∈ tab)
    (ht : ∀ r ∈ tab, r.all scalarB = true) {c x : Int} (hx : x ∈ full map c) : x = c ∨ Scalar x := by
  rw [full] at hx
  cases h : map c with
  | none => rw [h] at hx; simp at hx; exact .inl hx
  | some m =>
    rw [h] at hx
    obtain ⟨k, l, rfl, rfl, hr⟩ := hm c m h
    have hall := ht _ hr
    have hx1 := (List.takeWhile_sublist _).mem hx
    have hx2 : x ≠ 0 := by
      have := List.all_eq_true.mp (List.all_takeWhile (p := (· != (0 : Int))) (l := l.map Int.ofNat)) x hx
      simpa using this
    obtain ⟨n, hn, rfl⟩ := List.mem_map.mp hx1
    right
    refine scalarB_spec (List.all_eq_true.mp hall n (by simp [hn])) ?_
    rintro rfl; exact hx2 rfl

theorem Form.full_scalar (F : Form) {c x : Int} (hx : x ∈ full F.map c) : x = c ∨ Scalar x := by
  cases F
  all_goals first
    | exact U5e.full_scalar (tab := Data.decTable) (fun c m h => (C27_dec_iff c m).mp h)
        (fun r hr => (Tree.all_iff _ _).mp dec_scalar r (by rwa [decTree_toList])) hx
    | exact U5e.full_scalar (tab := Data.kdecTable) (fun c m h => (C27_kdec_iff c m).mp h)
        (fun r hr => (Tree.all_iff _ _).mp kdec_scalar r (by rwa [kdecTree_toList])) hx

theorem compResolve_scalar {a b c : Int} (h : compResolve a b = some c) : Scalar c := by
  obtain ⟨i, j, k, rfl, rfl, rfl, hm⟩ := (C27_comp_iff a b c).mp h
  rw [← compTree_toList] at hm
  have hrow := (Tree.all_iff _ _).mp comp_scalar _ hm
  have := List.all_eq_true.mp hrow k (by simp)
  rw [Bool.and_eq_true, Nat.blt_eq] at this
  exact scalarB_spec this.1 (by omega)

theorem composeFrom_mem {a x : Int} {l : List Int} (h : x ∈ composeFrom compResolve a l) :
    x ∈ a :: l ∨ Scalar x := by
  induction l generalizing a with
  | nil => exact .inl h
  | cons b l ih =>
    simp only [composeFrom] at h
    cases hc : compResolve a b with
    | none =>
      rw [hc] at h
      rcases List.mem_cons.mp h with rfl | h
      · exact .inl (by simp)
      · rcases ih h with h | h
        · exact .inl (List.mem_cons_of_mem _ h)
        · exact .inr h
    | some c =>
      rw [hc] at h
      rcases ih h with h | h
      · rcases List.mem_cons.mp h with rfl | h
        · exact .inr (compResolve_scalar hc)
        · exact .inl (by simp [h])
      · exact .inr h

theorem Form.text_mem (F : Form) {sort : SortFn} (hs : ConformingSort sort) {cs : List Int} {x : Int}
    (hx : x ∈ F.text sort cs) : x ∈ cs ∨ Scalar x := by
  obtain ⟨g, hg, hx⟩ := List.mem_flatMap.mp hx
  have hblock : ∀ y ∈ sort canonicalCombiningOrder (decompose F.map g), y ∈ cs ∨ Scalar y := by
    intro y hy
    obtain ⟨c, hc, hy⟩ := List.mem_flatMap.mp ((hs.perm _).mem_iff.mp hy)
    rcases F.full_scalar hy with rfl | h
    · left
      rw [← segments_flatten isGraphemeBoundary cs]
      exact List.mem_flatten.mpr ⟨g, hg, hc⟩
    · exact .inr h
  have hcomp : ∀ y ∈ compose compResolve (sort canonicalCombiningOrder (decompose F.map g)),
      y ∈ cs ∨ Scalar y := by
    intro y hy
    generalize sort canonicalCombiningOrder (decompose F.map g) = l at hblock hy
    cases l with
    | nil => simp [compose] at hy
    | cons a l =>
      rcases composeFrom_mem hy with h | h
      · exact hblock y h
      · exact .inr h
  cases F
  · exact hblock x hx
  · exact hcomp x hx
  · exact hblock x hx
  · exact hcomp x hx

/-- C52. The normal form of any text consists of codepoints of the text and Unicode scalar values other
than U+0000: normalization never introduces a NUL, a surrogate or a value above U+10FFFF; so Unicode
text stays Unicode text. -/
theorem C52_scalar_values (F : Form) (sort : SortFn) (hs : ConformingSort sort) (cs : List Int)
    (fuel : Nat) (hf : cs.length < fuel) (hb : (cs.flatMap (full F.map)).length < 2 ^ 31) :
    ∃ ns : List Int, normalize32 F sort fuel cs [] = .ok ((ns.length : Int), ns) ∧
      ∀ x ∈ ns, x ∈ cs ∨ (0 < x ∧ x < 0x110000 ∧ ¬ (0xD800 ≤ x ∧ x < 0xE000)) :=
  ⟨_, by rw [normalize32_eq F hs cs [] fuel hf hb]; rfl, fun _ hx => F.text_mem hs hx⟩

/-- Instance. -/
example := C52_scalar_values .KC insSort insSort_stable.1 [0x75, 0x308, 0xFB01, -7] 5 (by decide) (by decide +kernel)

/-- C52. Normalizing UTF-8 text into a UTF-8 string is undefined behaviour exactly when its normal form
contains U+0000 or one of the codepoints for which the encoder leaves its scratch buffer (C11);
otherwise it returns the number of codepoints of the normal form. -/
theorem C52_undefined_iff (F : Form) (sort : SortFn) (hs : ConformingSort sort) (cs : List Nat)
    (h : ∀ c ∈ cs, c < 2 ^ 31) (fuel : Nat) (hf : cs.length < fuel)
    (hb : ((cs.map Int.ofNat).flatMap (full F.map)).length < 2 ^ 31) (out : List UInt8) :
    ∃ ns : List Int, normalize32 F sort fuel (cs.map Int.ofNat) [] = .ok ((ns.length : Int), ns) ∧
      (normalize8 F sort fuel cs out = .ub ↔ ∃ x ∈ ns, x = 0 ∨ OverReads x.toNat) ∧
      (normalize8 F sort fuel cs out ≠ .ub →
        ∃ octets, normalize8 F sort fuel cs out = .ok ((ns.length : Int), octets)) := by
  obtain ⟨ns, h1, h2⟩ := C38_exact F sort hs cs h fuel hf hb out
  obtain ⟨ns', h3, h4⟩ := C52_scalar_values F sort hs (cs.map Int.ofNat) fuel (by simpa) hb
  have hns : ns' = ns := by
    rw [h3] at h1; simp only [Res.ok.injEq, Prod.mk.injEq] at h1; exact h1.2
  subst hns
  have hrange : ∀ x ∈ ns', 0 ≤ x ∧ x < 2 ^ 31 := by
    intro x hx
    rcases h4 x hx with h5 | h5
    · obtain ⟨n, hn, rfl⟩ := List.mem_map.mp h5
      have := h n hn
      constructor
      · simp
      · show (n : Int) < _; omega
    · omega
  have hub := appendFromUtf32_ub out (ns'.map (BitVec.ofInt 32))
  refine ⟨ns', h1, ?_, ?_⟩
  · rw [h2]
    have : (append8 out ns' >>= fun o => Res.ok ((ns'.length : Int), o)) = .ub ↔ append8 out ns' = .ub := by
      cases append8 out ns' <;> simp
    rw [this, append8, hub.1]
    constructor
    · rintro ⟨v, hv, hc⟩
      obtain ⟨x, hx, rfl⟩ := List.mem_map.mp hv
      obtain ⟨hx0, hx1⟩ := hrange x hx
      have ht := ofInt_toNat hx0 hx1
      refine ⟨x, hx, ?_⟩
      rcases hc with hc | hc | hc
      · rw [hc] at ht; left; simp at ht; omega
      · rw [BitVec.toInt_eq_toNat_cond, ht] at hc; split at hc <;> omega
      · rw [ht] at hc; exact .inr hc
    · rintro ⟨x, hx, hc⟩
      obtain ⟨hx0, hx1⟩ := hrange x hx
      have ht := ofInt_toNat hx0 hx1
      refine ⟨_, List.mem_map.mpr ⟨x, hx, rfl⟩, ?_⟩
      rcases hc with rfl | hc
      · exact .inl rfl
      · rw [ht]; exact .inr (.inr hc)
  · intro hne
    rw [h2] at hne ⊢
    cases ha : append8 out ns' with
    | ok o => exact ⟨o, rfl⟩
    | ub => rw [ha] at hne; simp at hne
    | tmo => exact absurd ha hub.2

/-- Instance: "ᾴ" decomposed, whose NFC is undefined. -/
example := C52_undefined_iff .C insSort insSort_stable.1 [0x3B1, 0x301, 0x345] (by decide) 4 (by decide)
  (by decide +kernel) [0x41]

theorem composeFrom_keeps {x a : Int} {l : List Int} (h1 : ∀ b, compResolve x b = none)
    (h2 : ∀ b, compResolve b x = none) (h : x ∈ a :: l) : x ∈ composeFrom compResolve a l := by
  induction l generalizing a with
  | nil => exact h
  | cons b l ih =>
    simp only [composeFrom]
    cases hc : compResolve a b with
    | none =>
      rcases List.mem_cons.mp h with rfl | h
      · simp
      · exact List.mem_cons_of_mem _ (ih h)
    | some c =>
      refine ih ?_
      rcases List.mem_cons.mp h with rfl | h
      · rw [h1] at hc; simp at hc
      · rcases List.mem_cons.mp h with rfl | h
        · rw [h2] at hc; simp at hc
        · exact List.mem_cons_of_mem _ h

/-- A codepoint without mapping that takes part in no composition survives normalization. -/
theorem Form.text_keeps (F : Form) {sort : SortFn} (hs : ConformingSort sort) {cs : List Int} {x : Int}
    (hm : F.map x = none) (h1 : ∀ b, compResolve x b = none) (h2 : ∀ b, compResolve b x = none)
    (hx : x ∈ cs) : x ∈ F.text sort cs := by
  rw [← segments_flatten isGraphemeBoundary cs] at hx
  obtain ⟨g, hg, hx⟩ := List.mem_flatten.mp hx
  refine List.mem_flatMap.mpr ⟨g, hg, ?_⟩
  have hb : x ∈ sort canonicalCombiningOrder (decompose F.map g) := by
    rw [(hs.perm _).mem_iff]
    exact List.mem_flatMap.mpr ⟨x, hx, by rw [full, hm]; simp⟩
  have hc : x ∈ compose compResolve (sort canonicalCombiningOrder (decompose F.map g)) := by
    generalize sort canonicalCombiningOrder (decompose F.map g) = l at hb
    cases l with
    | nil => simp at hb
    | cons a l => exact composeFrom_keeps h1 h2 hb
  cases F
  · exact hb
  · exact hc
  · exact hb
  · exact hc

theorem emoji_unmapped : (List.range 0x400).all (fun i => (decT (0x1F300 + i)).isNone && (kdecT (0x1F300 + i)).isNone)
    = true := by decide +kernel
theorem emoji_not_composed : Data.compTree.all (·.all fun n => Nat.blt n 0x1F300) = true := by decide +kernel

/-- C52: in particular, normalizing text that contains any of the emoji U+1F300 … U+1F6FF into a UTF-8
string is undefined behaviour, whatever the rest of the text. -/
theorem C52_emoji_undefined (F : Form) (sort : SortFn) (hs : ConformingSort sort) (cs : List Nat)
    (h : ∀ c ∈ cs, c < 2 ^ 31) (fuel : Nat) (hf : cs.length < fuel)
    (hb : ((cs.map Int.ofNat).flatMap (full F.map)).length < 2 ^ 31) (out : List UInt8)
    (c : Nat) (hc : c ∈ cs) (he : 0x1F300 ≤ c ∧ c ≤ 0x1F6FF) : normalize8 F sort fuel cs out = .ub := by
  obtain ⟨ns, h1, h2, _⟩ := C52_undefined_iff F sort hs cs h fuel hf hb out
  rw [h2]
  have hns : ns = F.text sort (cs.map Int.ofNat) := by
    rw [normalize32_eq F hs _ [] fuel (by simpa) hb] at h1
    simp only [Res.ok.injEq, Prod.mk.injEq, List.nil_append] at h1; exact h1.2.symm
  have hr := List.all_eq_true.mp emoji_unmapped (c - 0x1F300) (List.mem_range.mpr (by omega))
  rw [show 0x1F300 + (c - 0x1F300) = c by omega, Bool.and_eq_true, Option.isNone_iff_eq_none,
    Option.isNone_iff_eq_none] at hr
  have hcomp : ∀ a b d : Int, compResolve a b = some d → a < 0x1F300 ∧ b < 0x1F300 := by
    intro a b d hd
    obtain ⟨i, j, k, rfl, rfl, rfl, hm⟩ := (C27_comp_iff a b d).mp hd
    rw [← compTree_toList] at hm
    have hrow := (Tree.all_iff _ _).mp emoji_not_composed _ hm
    have e1 := List.all_eq_true.mp hrow i (by simp)
    have e2 := List.all_eq_true.mp hrow j (by simp)
    rw [Nat.blt_eq] at e1 e2
    omega
  refine ⟨(c : Int), ?_, .inr ?_⟩
  · rw [hns]
    refine F.text_keeps hs ?_ (fun b => ?_) (fun b => ?_) (List.mem_map.mpr ⟨c, hc, rfl⟩)
    · cases F <;> simp only [Form.map]
      all_goals first | (rw [decResolve_nat, hr.1]; rfl) | (rw [kdecResolve_nat, hr.2]; rfl)
    · cases hd : compResolve (c : Int) b with
      | none => rfl
      | some d => have := (hcomp _ _ _ hd).1; omega
    · cases hd : compResolve b (c : Int) with
      | none => rfl
      | some d => have := (hcomp _ _ _ hd).2; omega
  · rw [Int.toNat_natCast]; unfold OverReads; omega

/-- Instance: "hi 😀" in any form. -/
example (F : Form) (out : List UInt8) : normalize8 F insSort 5 [0x68, 0x69, 0x20, 0x1F600] out = .ub :=
  C52_emoji_undefined F insSort insSort_stable.1 [0x68, 0x69, 0x20, 0x1F600] (by decide) 5 (by decide)
    (by cases F <;> decide +kernel) out 0x1F600 (by decide) (by decide)

/-- Non-vacuity: "hi 😀" is undefined; "ά" (U+03AC) in NFD is fine; in NFC the polytonic "ᾴ" built from
harmless codepoints U+03B1 U+0301 U+0345 becomes U+1FB4, which the encoder cannot write. -/
example : normalize8 .C insSort 9 [0x68, 0x69, 0x20, 0x1F600] [] = .ub ∧
    normalize8 .D insSort 9 [0x3AC] [] = .ok (2, [0xCE, 0xB1, 0xCC, 0x81]) ∧
    normalize8 .C insSort 9 [0x3B1, 0x301, 0x345] [] = .ub ∧
    normalize32 .C insSort 9 [0x3B1, 0x301, 0x345] [] = .ok (1, [0x1FB4]) := by decide +kernel

end U5e
