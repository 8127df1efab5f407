import Verif.Proofs.Platform
import Verif.Properties.Cursors
/-!
# C65: the choices of the implementation of C++

`Platform` (Model/Platform.lean) collects what C++14 leaves open and include/u5e/utf8_util.hpp, utf8_iterator.hpp
depend on: whether `char` is signed, what `<<` may do to the sign bit, what `>>` does to it, the precision and
rounding of a `float` division. `x86` is the platform the rest of the model fixes.
-/
namespace U5e
open Spec

theorem encode_lt_FE (c : Nat) (h : c < 2 ^ 31) : ∀ o ∈ encode c, o.toNat < 0xFE := by
  have hu := encode_isUnit c h
  cases he : encode c with
  | nil => rw [he] at hu; exact hu.elim
  | cons l cs =>
    rw [he] at hu
    obtain ⟨h1, h2⟩ := hu
    intro o ho
    rcases List.mem_cons.mp ho with rfl | ho
    · refine Nat.lt_of_not_le fun hge => ?_
      have : announced o = 0 := by simp only [announced]; rw [if_neg, if_neg, if_neg, if_neg, if_neg, if_neg, if_neg] <;> omega
      omega
    · have := (h2 o ho).2; omega

theorem encodeText_lt_FE (cs : List Nat) (h : ∀ c ∈ cs, c < 2 ^ 31) : ∀ o ∈ encodeText cs ++ [0], o.toNat < 0xFE := by
  intro o ho
  rcases List.mem_append.mp ho with ho | ho
  · obtain ⟨c, hc, ho⟩ := List.mem_flatMap.mp ho
    exact encode_lt_FE c (h c hc) o ho
  · rw [List.mem_singleton.mp ho]; decide

namespace Platform
variable {P : Platform}

theorem over_eq (hP : P.Usable) (cs : List Nat) (h : ∀ c ∈ cs, c < 2 ^ 31) :
    P.enc8.over (encodeText cs) = U5e.enc8.over (encodeText cs) :=
  utf8Iter_eq hP _ (Or.inr (encodeText_lt_FE cs h))

theorem enc8_assign_eq (hP : P.Usable) (cs : List Nat) (h : ∀ c ∈ cs, c < 2 ^ 31) (p : Nat) (c : Int) :
    P.enc8.assign (encodeText cs ++ [P.enc8.nul]) p c = U5e.enc8.assign (encodeText cs ++ [U5e.enc8.nul]) p c :=
  assign_eq hP _ _ _ (Or.inr (encodeText_lt_FE cs h))

theorem small_replace {pre post : List Nat} {old n : Nat} (h : ∀ c ∈ pre ++ old :: post, c < 2 ^ 31) (hn : n < 2 ^ 31) :
    ∀ c ∈ pre ++ n :: post, c < 2 ^ 31 := by
  intro c hc
  rcases List.mem_append.mp hc with hc | hc
  · exact h c (List.mem_append.mpr (Or.inl hc))
  · rcases List.mem_cons.mp hc with rfl | hc
    · exact hn
    · exact h c (List.mem_append.mpr (Or.inr (List.mem_cons_of_mem _ hc)))

theorem refines (hP : P.Usable) : Refines P.enc8 encodeText where
  append := refines8.append
  nil := refines8.nil
  sim cs h := by
    have := refines8.sim cs h
    rw [over_eq hP cs h]
    obtain ⟨pos, h1, h2, h3, h4, h5, h6⟩ := this
    refine ⟨pos, h1, h2, h3, h4, h5, fun ds i j hij hj => ?_⟩
    show P.appendRange _ _ _ _ = _
    rw [appendRange_eq]; exact h6 ds i j hij hj
  appendCps out cs h := by
    show P.appendFromUtf32 _ _ = _
    rw [appendFromUtf32_eq hP]; exact refines8.appendCps out cs h
  appendGraphemes := refines8.appendGraphemes
  assign pre post old n h henc hlen := by
    have := refines8.assign pre post old n h henc hlen
    rw [enc8_assign_eq hP _ h, over_eq hP _ (small_replace h (encodable_lt henc))]
    exact this

theorem refinesMid (hP : P.Usable) : RefinesMid P.enc8 encodeText where
  pos := refinesMid8.pos
  one := refinesMid8.one
  sameLen := refinesMid8.sameLen
  deref cs h := by rw [over_eq hP cs h]; exact refinesMid8.deref cs h
  inc cs h := by rw [over_eq hP cs h]; exact refinesMid8.inc cs h
  dec cs h := by rw [over_eq hP cs h]; exact refinesMid8.dec cs h
  eq cs h := by rw [over_eq hP cs h]; exact refinesMid8.eq cs h
  assign pre post old n h henc hlen := by
    rw [enc8_assign_eq hP _ h]
    exact refinesMid8.assign pre post old n h henc hlen

end Platform

/-- C65. Where `<<` moves bits, as with GCC and since C++20, nothing depends on the platform: strings, iterators and
bounds checks do the same on any buffer of octets, whether `char` is signed or not, whatever `>>` does to the sign and
however the `float` division of `encoded_size` is rounded. -/
theorem C65_same_everywhere (P Q : Platform) (hP : P.strictShl = false) (hQ : Q.strictShl = false) :
    P.enc8 = Q.enc8 ∧
    (∀ m b e, P.boundsCheck m b e = Q.boundsCheck m b e) ∧
    (∀ m b e, P.boundsEnforce m b e = Q.boundsEnforce m b e) ∧
    (∀ sort fuel σ ops, P.enc8.run sort fuel σ ops = Q.enc8.run sort fuel σ ops) ∧
    ∀ sort fuel client n M os, P.enc8.runClient sort fuel client n M os = Q.enc8.runClient sort fuel client n M os := by
  have e : P.enc8 = Q.enc8 := by rw [Platform.enc8_eq hP, Platform.enc8_eq hQ]
  refine ⟨e, fun m b e => ?_, fun m b e => ?_, fun sort fuel σ ops => by rw [e], fun sort fuel client n M os => by rw [e]⟩
  · rw [Platform.boundsCheck_eq (Or.inl hP), Platform.boundsCheck_eq (Or.inl hQ)]
  · rw [Platform.boundsEnforce_eq (Or.inl hP), Platform.boundsEnforce_eq (Or.inl hQ)]

/-- Instance: `char` unsigned, another shift and float. -/
example := C65_same_everywhere x86 ⟨false, false, false, .extended, .up⟩ rfl rfl

/-- C65: the rest of the model is the platform `x86`, to which `C65_same_everywhere` applies. -/
theorem C65_this_model : x86.enc8 = enc8 ∧ x86.boundsCheck = boundsCheck ∧ x86.boundsEnforce = boundsEnforce :=
  ⟨Platform.enc8_eq rfl, by funext m b e; exact Platform.boundsCheck_eq (Or.inl rfl) m b e,
   by funext m b e; exact Platform.boundsEnforce_eq (Or.inl rfl) m b e⟩

/-- C65. By the letter of C++14 the results are the same wherever `char` is unsigned, as long as no octet is 0xFE or
0xFF (valid UTF-8 contains neither): reading, moving and comparing on any such buffer, appending any codepoints, and
the bounds checks on any buffer at all. -/
theorem C65_unsigned_char (P : Platform) (hP : P.charSigned = false) :
    (∀ m : Mem, (∀ o ∈ m, o.toNat < 0xFE) → P.enc8.iter m = x86.enc8.iter m) ∧
    (∀ m : Mem, (∀ o ∈ m, o.toNat < 0xFE) → ∀ p c, P.enc8.assign m p c = x86.enc8.assign m p c) ∧
    (∀ out cs, P.enc8.appendCps out cs = x86.enc8.appendCps out cs) ∧
    (∀ out m p q, P.enc8.appendRange out m p q = x86.enc8.appendRange out m p q) ∧
    (∀ m b e, P.boundsCheck m b e = x86.boundsCheck m b e) ∧
    (∀ m b e, P.boundsEnforce m b e = x86.boundsEnforce m b e) := by
  have h : P.Usable := Or.inr hP
  have hx : x86.Usable := Or.inl rfl
  refine ⟨fun m hm => ?_, fun m hm p c => ?_, fun out cs => ?_, fun out m p q => ?_, fun m b e => ?_, fun m b e => ?_⟩
  · exact (Platform.utf8Iter_eq h m (Or.inr hm)).trans (Platform.utf8Iter_eq hx m (Or.inl rfl)).symm
  · exact (Platform.assign_eq h m p _ (Or.inr hm)).trans (Platform.assign_eq hx m p _ (Or.inl rfl)).symm
  · exact (Platform.appendFromUtf32_eq h out _).trans (Platform.appendFromUtf32_eq hx out _).symm
  · exact (Platform.appendRange_eq P out m p q).trans (Platform.appendRange_eq x86 out m p q).symm
  · rw [Platform.boundsCheck_eq h, Platform.boundsCheck_eq hx]
  · rw [Platform.boundsEnforce_eq h, Platform.boundsEnforce_eq hx]

/-- Instance: by the letter of C++14. -/
example := C65_unsigned_char ⟨false, true, true, .double, .nearestEven⟩ rfl

/-- C65, whole programs: on every platform where `<<` moves bits or `char` is unsigned, an allowed program does what it
should do on sequences of codepoints (as in C56). -/
theorem C65_programs (P : Platform) (hP : P.strictShl = false ∨ P.charSigned = false)
    (sort : SortFn) (hs : ConformingSort sort) (ops : List Op) (σ : Nat → List Nat)
    (hσ : ∀ k, ∀ c ∈ σ k, c < 2 ^ 31) (ha : (libraryData sort).AllowedRun σ ops) :
    ∃ σ' os N, (libraryData sort).IdealRun σ ops σ' os ∧ ∀ fuel, N ≤ fuel →
      P.enc8.run sort fuel (fun k => encodeText (σ k)) ops = .ok (fun k => encodeText (σ' k), os) := by
  obtain ⟨σ', os, N, hid, h⟩ := C56_programs sort hs ops σ hσ ha
  obtain ⟨N', h'⟩ := run_refines (Platform.refines hP) hs ops σ hσ ha σ' os hid
  exact ⟨σ', os, N', hid, h'⟩

/-- Instance: the program of C56. -/
example := C65_programs ⟨false, true, true, .double, .nearestEven⟩ (.inr rfl) insSort insSort_stable.1 sampleProgram
  sampleStore (by
    intro k c hc
    simp only [sampleStore] at hc
    split at hc <;> simp at hc
    rcases hc with rfl | rfl <;> decide)
  ((C56_allowed_checkable insSort sampleProgram sampleStore).mp (by decide +kernel))

/-- C65, whole programs with iterators (as in C62). -/
theorem C65_programs_with_iterators (P : Platform) (hP : P.strictShl = false ∨ P.charSigned = false)
    (sort : SortFn) (hs : ConformingSort sort) (client : Client) (n : Nat)
    (σ : Nat → List Nat) (hσ : ∀ k, ∀ c ∈ σ k, c < 2 ^ 31)
    (ha : (libraryData sort).MayRun client n (World.start σ) []) :
    ∃ w os N, (libraryData sort).Runs client n (World.start σ) [] w os ∧ ∀ fuel, N ≤ fuel →
      ∃ M, P.enc8.runClient sort fuel client n (Machine.start fun k => encodeText (σ k)) [] = .ok (M, os) ∧
        M.strings = fun k => encodeText (w.strings k) := by
  obtain ⟨w, os, hr⟩ := runs_exists sort client n _ _ ha
  obtain ⟨M, N, r, h⟩ := runClient_refines (Platform.refines hP) (Platform.refinesMid hP) hs client n _ _ hr
    (rel_start _ σ hσ) ha
  exact ⟨w, os, N, hr, fun fuel hf => ⟨M, h fuel hf, r.strings⟩⟩

/-- Instance: the loop of C62. -/
example := C65_programs_with_iterators ⟨false, true, true, .double, .nearestEven⟩ (.inr rfl) insSort insSort_stable.1
  capitals 30 (fun k => if k = 0 then [0x65, 0x301, 0x20AC, 0x66] else []) (by
    intro k c hc
    split at hc <;> simp at hc
    rcases hc with rfl | rfl | rfl | rfl <;> decide)
  ((C62_permitted_checkable insSort capitals 30 _ []).mp (by decide +kernel))

theorem encode_head_big (c : Nat) (h : c < 2 ^ 31) (h8 : 0x80 ≤ c) : ∀ l r, encode c = l :: r → 0xC0 ≤ l.toNat := by
  intro l r he
  unfold encode at he
  rw [if_neg (by omega)] at he
  split at he
  · simp only [List.cons.injEq] at he; rw [← he.1, UInt8.toNat_ofNat']; omega
  split at he
  · simp only [List.cons.injEq] at he; rw [← he.1, UInt8.toNat_ofNat']; omega
  split at he
  · simp only [List.cons.injEq] at he; rw [← he.1, UInt8.toNat_ofNat']; omega
  split at he
  · simp only [List.cons.injEq] at he; rw [← he.1, UInt8.toNat_ofNat']; omega
  · simp only [List.cons.injEq] at he; rw [← he.1, UInt8.toNat_ofNat']; omega

theorem ascii_prefix : ∀ cs : List Nat, (∀ c ∈ cs, c < 2 ^ 31) → (∃ c ∈ cs, 0x80 ≤ c) →
    ∃ n l, n < (encodeText cs).length ∧ n < cs.length ∧ (∀ i, i < n → ∃ o : Octet, (encodeText cs)[i]? = some o ∧ o.toNat < 0x80) ∧
      (encodeText cs)[n]? = some l ∧ 0xC0 ≤ l.toNat := by
  intro cs
  induction cs with
  | nil => rintro _ ⟨c, hc, _⟩; cases hc
  | cons c cs ih =>
    intro h hex
    by_cases h7 : c < 0x80
    · have hex' : ∃ c ∈ cs, 0x80 ≤ c := by
        obtain ⟨d, hd, hd8⟩ := hex
        rcases List.mem_cons.mp hd with rfl | hd
        · omega
        · exact ⟨d, hd, hd8⟩
      obtain ⟨n, l, h1, h2, h3, h4, h5⟩ := ih (fun d hd => h d (List.mem_cons_of_mem _ hd)) hex'
      have e : encodeText (c :: cs) = UInt8.ofNat c :: encodeText cs := by simp [encodeText, encode, h7]
      refine ⟨n + 1, l, by rw [e]; simpa using h1, by simpa using h2, fun i hi => ?_, by rw [e]; simpa using h4, h5⟩
      cases i with
      | zero => exact ⟨UInt8.ofNat c, by rw [e]; rfl, by simp; omega⟩
      | succ i =>
        obtain ⟨o, ho, ho7⟩ := h3 i (by omega)
        exact ⟨o, by rw [e]; simpa using ho, ho7⟩
    · have hu := encode_isUnit c (h c (by simp))
      have h80 := encode_head_big c (h c (by simp)) (by omega)
      cases he : encode c with
      | nil => rw [he] at hu; exact hu.elim
      | cons l r =>
        rw [he] at hu
        have e : encodeText (c :: cs) = l :: (r ++ encodeText cs) := by simp [encodeText, he]
        refine ⟨0, l, by rw [e]; simp, by simp, fun i hi => by omega, by rw [e]; rfl, ?_⟩
        exact h80 l r he

/-- C65: by the letter of C++14 and with signed `char` (x86), reading a text is undefined as soon as it contains one
codepoint that is not ASCII: `codepoint_size` shifts a negative number. -/
theorem C65_signed_char_strict (P : Platform) (h1 : P.strictShl = true) (h2 : P.charSigned = true) (cs : List Nat)
    (h : ∀ c ∈ cs, c < 2 ^ 31) (hex : ∃ c ∈ cs, 0x80 ≤ c) (sort : SortFn) (fuel : Nat) (hf : cs.length ≤ fuel) :
    P.enc8.run sort fuel (fun _ => encodeText cs) [.read 0] = .ub := by
  obtain ⟨n, l, hn, hn2, ha, hl, hl8⟩ := ascii_prefix cs h hex
  have hap : ∀ (i : Nat) (o : Octet), (encodeText cs)[i]? = some o → (encodeText cs ++ [0])[i]? = some o := by
    intro i o hi
    rw [List.getElem?_append_left (List.getElem?_eq_some_iff.mp hi).1]; exact hi
  have := Platform.readRange_strict h1 h2 hl8 (encodeText cs).length n 0 fuel
    (m := encodeText cs ++ [0])
    (fun i hi => by
      obtain ⟨o, ho, h7⟩ := ha i hi
      exact ⟨o, by rw [Nat.zero_add]; exact hap i o ho, h7⟩)
    (by rw [Nat.zero_add]; exact hap n l hl) (by omega) (by omega)
  simp only [Encoding.run, Encoding.step]
  show (readRange (P.utf8Iter _) _ _ _ >>= _) >>= _ = _
  rw [show encodeText cs ++ [P.enc8.nul] = encodeText cs ++ [0] from rfl, this]
  rfl

/-- Instance: "aé". -/
example := C65_signed_char_strict ⟨true, true, true, .single, .nearestEven⟩ rfl rfl [0x61, 0xE9] (by decide)
  ⟨0xE9, by decide, by decide⟩ insSort 3 (by decide)

/-- C65: on ASCII no platform differs, not even that one. -/
theorem C65_ascii (P : Platform) (m : Mem) (hm : ∀ o ∈ m, o.toNat < 0x80) : P.enc8.iter m = x86.enc8.iter m :=
  (Platform.utf8Iter_ascii P m hm).trans (Platform.utf8Iter_ascii x86 m hm).symm

/-- Instance. -/
example := C65_ascii ⟨true, true, true, .single, .nearestEven⟩ [0x48, 0x69, 0] (by decide)

/-- Five platforms: x86 with GCC, ARM with GCC, ARM by the letter of C++14, x86 by the letter of C++14, and one with
logical `>>` and extended precision rounded up. -/
def somePlatforms : List Platform :=
  [x86, ⟨false, false, true, .single, .nearestEven⟩, ⟨false, true, true, .double, .nearestEven⟩,
   ⟨true, true, true, .single, .nearestEven⟩, ⟨true, false, false, .extended, .up⟩]

/-- Non-vacuity: "aé€", then U+10FFFF appended, then read. Only the fourth platform has no result. -/
example : somePlatforms.map (fun P =>
    match P.enc8.run insSort 20 (fun _ => encodeText [0x61, 0xE9, 0x20AC]) [.appendCps 0 [0x10FFFF], .read 0] with
    | .ok (_, os) => some os | _ => none) =
    let good := some [Obs.none, .codepoints [0x61, 0xE9, 0x20AC, 0x10FFFF]]
    [good, good, good, none, good] := by decide +kernel

/-- C65: octet 0xFE has to be excluded where `<<` is taken by the letter. With GCC, `*it` on a sequence of seven octets
is defined and keeps 32 bits; by the letter the last shift is undefined. -/
theorem C65_restrictions_needed :
    let m : Mem := [0xFE, 0x84, 0x80, 0x80, 0x80, 0x80, 0x80, 0]
    let read : Bool → Res (Int × Nat) := fun strict => ((⟨false, strict, true, .single, .nearestEven⟩ : Platform).enc8.iter m).deref 0
    read false = .ok (0, 0) ∧ read true = .ub := by decide +kernel

end U5e
