import Verif.Proofs.CostInst
import Verif.Properties.Normalize
import Verif.Properties.Grapheme
/-!
# C66: the amount of work

`Model/Cost` repeats the functions with a counter of the octets, codepoints and table rows read. The first theorem says
that these are the same functions; the others bound the counter by the size of the input.
-/
namespace U5e
open Spec

/-- C66, what is counted: the counting functions compute exactly what the functions of the model compute, whatever the
memory, the positions, the sort and the destination. -/
theorem C66_same_functions (m : Mem) (m' : List Int) (e fuel p b : Nat) (F : Form) (sort : SortFn)
    (compared : List Int → List (Int × Int)) (append : AppendFn β) (out : β) (g h : GIter) :
    (Work.walk m e fuel p).res = walk m e fuel p ∧ (Work.walkBack m e fuel p).res = walkBack m e fuel p ∧
    (Work.eqG (Work.utf8Iter m) fuel g h).res = g.eqG (utf8Iter m) fuel h ∧
    (Work.normalizeText F sort compared append (Work.utf8Iter m) fuel b e out).res =
      normalizeText (F.run sort append) (utf8Iter m) fuel b e out ∧
    (Work.normalizeText F sort compared append (Work.utf32Iter m') fuel b e out).res =
      normalizeText (F.run sort append) (utf32Iter m') fuel b e out ∧
    ∀ op : Grapheme → β → Work (Int × β),
      (Work.filterGraphemes (Work.utf8Iter m) fuel b e out op).res =
        filterGraphemes (utf8Iter m) fuel b e out (fun g o => (op g o).res) ∧
      (Work.filterGraphemes (Work.utf32Iter m') fuel b e out op).res =
        filterGraphemes (utf32Iter m') fuel b e out (fun g o => (op g o).res) := by
  refine ⟨Work.walk_res _ _ _ _, Work.walkBack_res _ _ _ _, ?_, ?_, ?_, fun op => ⟨?_, ?_⟩⟩
  · rw [Work.eqG_res, Work.utf8Iter_plain]
  · rw [Work.normalizeText_res, Work.utf8Iter_plain]
  · rw [Work.normalizeText_res, Work.utf32Iter_plain]
  · rw [Work.filterGraphemes_res, Work.utf8Iter_plain]
  · rw [Work.filterGraphemes_res, Work.utf32Iter_plain]

/-- C66, look-ups: for every codepoint (or pair, or int that is no codepoint) a look-up gives the value the library
gives and compares at most 10, 12, 12, 10 and 11 rows, an answer on a grapheme boundary at most 22 and a comparison
of combining classes at most 20. -/
theorem C66_lookups (a b : Int) :
    ((Work.cccResolve a).res = .ok (cccResolve a) ∧ (Work.cccResolve a).reads ≤ 10) ∧
    ((Work.decResolve a).res = .ok (decResolve a) ∧ (Work.decResolve a).reads ≤ 12) ∧
    ((Work.kdecResolve a).res = .ok (kdecResolve a) ∧ (Work.kdecResolve a).reads ≤ 12) ∧
    ((Work.compResolve a b).res = .ok (compResolve a b) ∧ (Work.compResolve a b).reads ≤ 10) ∧
    ((Work.gcbResolve a).res = .ok (gcbResolve a) ∧ (Work.gcbResolve a).reads ≤ 11) ∧
    ((Work.isGraphemeBoundary a b).res = .ok (isGraphemeBoundary a b) ∧ (Work.isGraphemeBoundary a b).reads ≤ 22) ∧
    ((Work.combiningOrder a b).res = .ok (canonicalCombiningOrder a b) ∧ (Work.combiningOrder a b).reads ≤ 20) :=
  ⟨⟨Work.cccResolve_res a, Work.ccc_le a⟩, ⟨Work.decResolve_res a, Work.dec_le a⟩,
    ⟨Work.kdecResolve_res a, Work.kdec_le a⟩, ⟨Work.compResolve_res a b, Work.comp_le a b⟩,
    ⟨Work.gcbResolve_res a, Work.gcb_le a⟩, ⟨Work.isGraphemeBoundary_res a b, Work.boundary_le a b⟩,
    ⟨Work.combiningOrder_res a b, Work.order_le a b⟩⟩

/-- C66: no bound on the look-ups can be lowered, some compare that many rows. -/
theorem C66_lookups_attained : (Work.cccResolve 0).reads = 10 ∧ (Work.decResolve 0).reads = 12 ∧ (Work.kdecResolve 0).reads = 12 ∧
    (Work.compResolve 0 0).reads = 10 ∧ (Work.gcbResolve (-1)).reads = 11 ∧
    (Work.isGraphemeBoundary (-1) (-1)).reads = 22 ∧ (Work.combiningOrder 0 0).reads = 20 := by decide +kernel

/-- C66, forwards over any octets: with a first octet that is not a continuation octet, at most 29 reads for every
round of the loop `while (it != end) { *it; ++it; }`, however it ends; and when it ends with the codepoints `cs`, at
most 29 for each of them plus 10, however much fuel it was given. -/
theorem C66_forward_any_octets (t : List UInt8) (o : UInt8) (fuel : Nat) (h : (t ++ [0])[0]? = some o)
    (hc : ¬ IsContinuation o) :
    (Work.walk (t ++ [0]) t.length fuel 0).reads ≤ 29 * fuel ∧
    ∀ cs, walk (t ++ [0]) t.length fuel 0 = .ok cs →
      (Work.walk (t ++ [0]) t.length fuel 0).reads ≤ 29 * cs.length + 10 := by
  have hc' : isCont o = false := by
    cases hb : isCont o
    · rfl
    · exact absurd (isCont_iff o |>.mp hb) hc
  have hn := Work.near_start h hc'
  exact ⟨Work.walk_le _ _ _ _ hn, fun cs hcs => Work.walk_ok_le _ _ _ _ hn cs hcs⟩

/-- "A", an overlong NUL, a stray continuation octet and a truncated sequence. -/
example : ([0x41, 0xC0, 0x80, 0x80, 0xE2, 0x82] ++ [0] : List UInt8)[0]? = some 0x41 ∧
    ¬ IsContinuation 0x41 := by decide

/-- C66, backwards over any octets: from the end of a text of `n` octets, at most 13 reads for each octet plus 3. -/
theorem C66_backward_any_octets (t : List UInt8) (fuel : Nat) :
    (Work.walkBack (t ++ [0]) 0 fuel t.length).reads ≤ 13 * t.length + 3 :=
  Work.walkBack_le _ _ _ _ (o := 0) (by simp) (by decide)

/-- The work of one round of the forward loop on valid text: 5 reads for a codepoint below 128, for the others the
number of octets plus 6. -/
def readsOf (c : Nat) : Nat := if c < 128 then 5 else (encode c).length + 6

/-- C66, forwards over valid text, exactly. -/
theorem C66_forward_exact (cs : List Nat) (h : ∀ c ∈ cs, c < 2 ^ 31) (fuel : Nat) (hf : cs.length < fuel) :
    (Work.walk (encodeText cs ++ [0]) (encodeText cs).length fuel 0).reads = (cs.map readsOf).sum + 2 := by
  have hm := holds_append [] (encodeText cs) [0]
  simp only [List.nil_append, List.length_nil] at hm
  have := Work.walk_units_cost (encodeText cs ++ [0]) (cs.map encode) (wellShaped_encode cs h) 0
    (by rw [← encodeText_flatten]; exact hm) 0 (by rw [← encodeText_flatten]; simp) (by decide) fuel
    (by simpa using hf)
  rw [← encodeText_flatten, Nat.zero_add] at this
  rw [this, List.map_map]
  congr 2
  apply List.map_congr_left
  intro c hc
  simp only [Function.comp, Work.roundReads, readsOf]
  have : (encode c).length = 1 ↔ c < 128 := by
    simp only [encode]
    repeat' split
    all_goals simp <;> omega
  simp only [this]

/-- "aé€😀": 5 + 8 + 9 + 10 + 2. -/
example : (Work.walk (encodeText [0x61, 0xE9, 0x20AC, 0x1F600] ++ [0]) 10 5 0).reads = 34 := by decide +kernel

theorem cheap_encodeText (cs : List Nat) (h : ∀ c ∈ cs, c < 2 ^ 31) :
    let I := Work.utf8Iter (encodeText cs ++ [0])
    let pos := upos 0 (cs.map encode)
    Sim I.plain pos (cs.map Int.ofNat) ∧ (I.deref (pos cs.length)).res = .ok (0, pos cs.length) ∧
    Work.Cheap I pos (cs.map Int.ofNat).length 8 2 7 2 ∧
    (∀ j, j < (cs.map Int.ofNat).length → (I.inc (pos j)).reads = 2) ∧
    ∀ j q, j ≤ (cs.map Int.ofNat).length → (I.eq (pos j) q).reads = 2 := by
  intro I pos
  obtain ⟨S, hend⟩ := sim_encodeText cs h [] 0 (by decide) []
  have e3 : [] ++ encodeText cs ++ (encode 0 ++ []) = encodeText cs ++ [0] := by simp [encode]
  rw [e3] at S hend
  have hm := holds_append [] (encodeText cs) [0]
  have hm0 := holds_append (encodeText cs) [0] []
  simp only [List.nil_append, List.length_nil, List.append_nil] at hm hm0
  obtain ⟨H, h1, h2⟩ := Work.cheap_utf8 (encodeText cs ++ [0]) (cs.map encode) (wellShaped_encode cs h) 0
    (by rw [← encodeText_flatten]; exact hm) (encode 0) (encode_isUnit 0 (by decide))
    (by rw [← encodeText_flatten, Nat.zero_add]; exact hm0)
  simp only [List.length_map] at H h1 h2 ⊢
  refine ⟨?_, ?_, H, h1, h2⟩
  · show Sim (Work.utf8Iter _).plain _ _
    rw [Work.utf8Iter_plain]; exact S
  · show (Work.cur _ _).res = _
    rw [Work.cur_res]; exact hend

theorem cheap32 (cs : List Int) :
    let I := Work.utf32Iter (cs ++ [0])
    let pos := fun i : Nat => i
    Sim I.plain pos cs ∧ (I.deref (pos cs.length)).res = .ok (0, pos cs.length) ∧
    Work.Cheap I pos cs.length 1 0 0 0 := by
  intro I pos
  have S := sim_utf32 [] cs [0]
  have hz := sim_utf32_end [] cs 0 []
  simp only [List.nil_append, List.length_nil, Nat.zero_add] at S hz
  exact ⟨S, hz, Work.cheap_utf32 _ _ _⟩

/-- C66, graphemes: visiting all graphemes of a text of `n` codepoints with a callback that reads nothing costs at
most `60 n + 87` reads for UTF-8 and `24 n + 27` for utf32ne, table rows included, however long the graphemes are. -/
theorem C66_graphemes (op : Grapheme → β → Res (Int × β)) (out : β) (fuel : Nat) :
    (∀ cs : List Nat, (∀ c ∈ cs, c < 2 ^ 31) → cs.length < fuel →
      (Work.filterGraphemes (Work.utf8Iter (encodeText cs ++ [0])) fuel 0 (encodeText cs).length out
        (fun g o => Work.free (op g o))).reads ≤ 60 * cs.length + 87) ∧
    ∀ cs : List Int, cs.length < fuel →
      (Work.filterGraphemes (Work.utf32Iter (cs ++ [0])) fuel 0 cs.length out
        (fun g o => Work.free (op g o))).reads ≤ 24 * cs.length + 27 := by
  constructor
  · intro cs h hf
    obtain ⟨S, hz, H, _, _⟩ := cheap_encodeText cs h
    have := Work.filterGraphemes_cost S H (C := fun _ _ => 0) ⟨fun _ _ _ _ _ => Nat.le_refl _⟩
      (fun g o => Work.free (op g o)) fuel (by simpa using hf) 0 (by simpa using hz) (fun a _ => brk_zero a)
      (fun _ _ _ _ _ => Nat.le_refl _) out
    simp only [List.length_map, upos_zero, upos_encode_end, Nat.zero_add] at this
    exact Nat.le_trans this (by omega)
  · intro cs hf
    obtain ⟨S, hz, H⟩ := cheap32 cs
    have := Work.filterGraphemes_cost S H (C := fun _ _ => 0) ⟨fun _ _ _ _ _ => Nat.le_refl _⟩
      (fun g o => Work.free (op g o)) fuel hf 0 hz (fun a _ => brk_zero a) (fun _ _ _ _ _ => Nat.le_refl _) out
    exact Nat.le_trans this (by omega)

/-- Four codepoints, three graphemes. -/
example : (Work.filterGraphemes (Work.utf8Iter (encodeText [0x65, 0x301, 0x20AC, 0x61] ++ [0])) 5 0 7 (0 : Nat)
    (fun _ n => Work.free (.ok (1, n + 1)))).res = .ok (3, 3) := by decide +kernel

theorem log_mono {a b : Nat} (h : a ≤ b) : Nat.log2 a ≤ Nat.log2 b := by
  by_cases ha : a = 0
  · subst ha; simp
  · exact (Nat.le_log2 (by omega)).mpr (Nat.le_trans (Nat.log2_self_le ha) h)

theorem nlogn (K a b : Nat) :
    K * (a * (a.log2 + 1)) + K * (b * (b.log2 + 1)) ≤ K * ((a + b) * ((a + b).log2 + 1)) := by
  rw [← Nat.mul_add]
  apply Nat.mul_le_mul_left
  rw [Nat.add_mul]
  exact Nat.add_le_add (Nat.mul_le_mul_left _ (by have := log_mono (Nat.le_add_right a b); omega))
    (Nat.mul_le_mul_left _ (by have := log_mono (Nat.le_add_left b a); omega))

/-- C66, normalization: let `std::sort` make at most `K m (log₂ m + 1)` comparisons on `m` codepoints, as the standard
asks for some `K`. Then each of the four forms reads, on a text of `n` codepoints whose full decomposition has
`N ≤ 20 n`, at most `87 n + 13 N + 20 K N (log₂ N + 1) + 87` octets and table rows for UTF-8, and
`38 n + 13 N + 20 K N (log₂ N + 1) + 27` for utf32ne. -/
theorem C66_normalization (F : Form) (sort : SortFn) (hs : ConformingSort sort)
    (compared : List Int → List (Int × Int)) (K : Nat)
    (hK : ∀ l, (compared l).length ≤ K * (l.length * (l.length.log2 + 1))) (append : AppendFn β) (out : β)
    (fuel : Nat) :
    (∀ cs : List Int, (cs.flatMap (full F.map)).length ≤ 20 * cs.length) ∧
    (∀ cs : List Nat, (∀ c ∈ cs, c < 2 ^ 31) → cs.length < fuel →
      let N := ((cs.map Int.ofNat).flatMap (full F.map)).length
      (Work.normalizeText F sort compared append (Work.utf8Iter (encodeText cs ++ [0])) fuel 0 (encodeText cs).length
        out).reads ≤ 87 * cs.length + 13 * N + 20 * (K * (N * (N.log2 + 1))) + 87) ∧
    ∀ cs : List Int, cs.length < fuel →
      let N := (cs.flatMap (full F.map)).length
      (Work.normalizeText F sort compared append (Work.utf32Iter (cs ++ [0])) fuel 0 cs.length out).reads ≤
        38 * cs.length + 13 * N + 20 * (K * (N * (N.log2 + 1))) + 27 := by
  refine ⟨?_, ?_, ?_⟩
  · intro cs
    induction cs with
    | nil => simp
    | cons c cs ih =>
      rw [List.flatMap_cons, List.length_append, List.length_cons]
      have := (Work.goodMap F).len c
      omega
  · intro cs h hf N
    obtain ⟨S, hz, H, _, _⟩ := cheap_encodeText cs h
    have := Work.normalizeText_cost S H F hs (compared := compared) hK (nlogn K) append fuel (by simpa using hf) 0
      (by simpa using hz) (fun a _ => brk_zero a) out
    simp only [List.length_map, upos_zero, upos_encode_end, Nat.zero_add] at this
    change _ ≤ _ * _ + 13 * N + 20 * (K * (N * (N.log2 + 1))) + _ at this
    exact Nat.le_trans this (by omega)
  · intro cs hf N
    obtain ⟨S, hz, H⟩ := cheap32 cs
    have := Work.normalizeText_cost S H F hs (compared := compared) hK (nlogn K) append fuel hf 0 hz
      (fun a _ => brk_zero a) out
    change _ ≤ _ * _ + 13 * N + 20 * (K * (N * (N.log2 + 1))) + _ at this
    exact Nat.le_trans this (by omega)

/-- Insertion into a list that is sorted already compares neighbours: within `K = 1`. -/
example : (∀ l : List Int, (l.zip l.tail).length ≤ 1 * (l.length * (l.length.log2 + 1))) ∧
    ConformingSort insSort := by
  refine ⟨fun l => ?_, insSort_stable.1⟩
  rw [List.length_zip, List.length_tail, Nat.one_mul, Nat.mul_add]
  omega

/-- C66, comparing grapheme iterators is not constant time: for two different graphemes of a UTF-8 text, reached by
incrementing, `==` reads an octet `|a| (6 |b| + 8) + 4` times, where `|a|` and `|b|` count codepoints. -/
theorem C66_equality_multiplies (cs : List Nat) (h : ∀ c ∈ cs, c < 2 ^ 31) (gs : List (List Int))
    (hgs : IsSegmentation Breaks (cs.map Int.ofNat) gs) (fuel : Nat) (hf : cs.length < fuel) (j k : Nat)
    (hj : j < gs.length) (hk : k < gs.length) (hjk : j ≠ k) :
    let m := encodeText cs ++ [0]
    let e := (encodeText cs).length
    ∃ a b, (graphemeBegin (utf8Iter m) fuel 0 e >>= incN (utf8Iter m) fuel j) = .ok a ∧
      (graphemeBegin (utf8Iter m) fuel 0 e >>= incN (utf8Iter m) fuel k) = .ok b ∧
      (Work.eqG (Work.utf8Iter m) fuel a b).res = .ok false ∧
      (Work.eqG (Work.utf8Iter m) fuel a b).reads = gs[j].length * (6 * gs[k].length + 8) + 4 := by
  intro m e
  obtain rfl := segments_unique hgs
  obtain ⟨S, _, H, h1, h2⟩ := cheap_encodeText cs h
  have hpl := Work.utf8Iter_plain m
  have hlen : (cs.map Int.ofNat).length = cs.length := List.length_map ..
  have hN := fun n => graphemeN_sim S fuel (by omega) n
  rw [hlen, upos_zero, upos_encode_end, Nat.zero_add] at hN
  have hsz : ∀ n (hn : n < (segments isGraphemeBoundary (cs.map Int.ofNat)).length),
      segStart (cs.map Int.ofNat) (n + 1) - segStart (cs.map Int.ofNat) n =
        (segments isGraphemeBoundary (cs.map Int.ofNat))[n].length ∧
      segStart (cs.map Int.ofNat) n < segStart (cs.map Int.ofNat) (n + 1) := by
    intro n hn
    have := (segStart_mono_lt (cs.map Int.ofNat) (Nat.lt_succ_self n) hn).2
    rw [segStart, flatten_take_succ _ n hn]
    rw [segStart, segStart, flatten_take_succ _ n hn] at this
    simp only [segStart] at this ⊢
    omega
  refine ⟨_, _, by rw [← hpl]; exact hN j, by rw [← hpl]; exact hN k, ?_, ?_⟩
  · obtain ⟨a, b, _, ha, hb, _, heq, _⟩ :=
      C24_equality_utf8 cs h _ hgs fuel hf j k (Nat.le_of_lt hj) (Nat.le_of_lt hk) 0 (Nat.zero_le _)
    have h3 := hN j
    have h4 := hN k
    rw [hpl] at h3 h4
    rw [h3] at ha; rw [h4] at hb
    injection ha with ha; injection hb with hb
    subst ha hb
    rw [Work.eqG_res, hpl, heq]
    simp [hjk]
  · have := Work.eqG_miss_cost S h1 h2 fuel (upos 0 (cs.map encode) 0) (upos 0 (cs.map encode) 0) _ _ _ _
      (hsz j hj).2 (segStart_le _ _) (hsz k hk).2 (segStart_le _ _) (by omega) (by
        rcases Nat.lt_or_gt_of_ne hjk with h | h
        · exact .inl (segStart_mono_lt _ h (Nat.le_of_lt hk)).1
        · exact .inr (segStart_mono_lt _ h (Nat.le_of_lt hj)).1)
    rw [hlen, upos_zero, upos_encode_end, Nat.zero_add, (hsz j hj).1, (hsz k hk).1] at this
    exact this

/-- Instance: "e\u0301\u0301" and "a\u0301". -/
example := C66_equality_multiplies [0x65, 0x301, 0x301, 0x61, 0x301] (by decide) [[0x65, 0x301, 0x301], [0x61, 0x301]]
  (segmentation_of (by decide +kernel)) 6 (by decide) 0 1 (by decide) (by decide) (by decide)

/-- Graphemes of three and two codepoints: 3 · (6 · 2 + 8) + 4. -/
example : (Work.eqG (Work.utf8Iter (encodeText [0x65, 0x301, 0x301, 0x61, 0x301] ++ [0])) 6 ⟨0, 8, 0, 5⟩
    ⟨0, 8, 5, 8⟩) = ⟨.ok false, 64⟩ := by decide +kernel

end U5e
