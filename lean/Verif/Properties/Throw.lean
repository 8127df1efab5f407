import Verif.Proofs.Throw
import Verif.Proofs.Idem
import Verif.Properties.History
import Verif.Spec.Throw
/-!
# C61: exceptions at any point

An allocation fails after `k` successful ones (Model/Throw.lean). For every `k`.
-/
namespace U5e
open Spec

/-- Normalizing a NUL-terminated utf32ne string into a utf32ne string; `k` allocations succeed. -/
def normalize32X (F : Form) (sort : SortFn) (fuel : Nat) (cs out : List Int) (k : Nat) : Res (Call Int (List Int)) :=
  normalizeTextX (F.runX sort append32X) (utf32Iter (cs ++ [0])) fuel 0 cs.length out k

/-- Normalizing a NUL-terminated UTF-8 string with the codepoints `cs` into a UTF-8 string; `k` allocations
succeed. -/
def normalize8X (F : Form) (sort : SortFn) (fuel : Nat) (cs : List Nat) (out : List UInt8) (k : Nat) :
    Res (Call Int (List UInt8)) :=
  normalizeTextX (F.runX sort append8X) (utf8Iter (encodeText cs ++ [0])) fuel 0 (encodeText cs).length out k

theorem isSegmentation_take {brk : Int → Int → Prop} {cs : List Int} {gs : List (List Int)}
    (h : IsSegmentation brk cs gs) (j : Nat) : IsSegmentation brk (gs.take j).flatten (gs.take j) where
  concat := rfl
  nonempty g hg := h.nonempty g (List.mem_of_mem_take hg)
  inside g hg := h.inside g (List.mem_of_mem_take hg)
  between p g g' q e := h.between p g g' (q ++ gs.drop j) (by
    conv => lhs; rw [← List.take_append_drop j gs, e]
    simp)

theorem graphemes_take (cs : List Int) (j : Nat) : graphemes ((graphemes cs).take j).flatten = (graphemes cs).take j :=
  (isSegmentation_unique _ _ _ (isSegmentation_take (segments_isSegmentation isGraphemeBoundary cs) j)).symm

theorem take_flatten_length_le (gs : List (List α)) (j : Nat) : (gs.take j).flatten.length ≤ gs.flatten.length := by
  conv => rhs; rw [← List.take_append_drop j gs, List.flatten_append, List.length_append]
  omega

theorem take_decompose_le (map) (cs : List Int) (j : Nat) :
    (((graphemes cs).take j).flatten.flatMap (full map)).length ≤ (cs.flatMap (full map)).length := by
  have h : cs = ((graphemes cs).take j).flatten ++ ((graphemes cs).drop j).flatten := by
    rw [← List.flatten_append, List.take_append_drop]; exact (segments_flatten _ cs).symm
  conv => rhs; rw [h, List.flatMap_append, List.length_append]
  omega

/-- C61, utf32ne. Let an allocation fail after `k` successful ones. With `need` = one append per codepoint and one
per grapheme: if `k` covers the text, the result is the ordinary one. Otherwise the exception leaves the output
exactly as ordinary normalization of the first `j` graphemes leaves it, where `j` is the number of graphemes that
`k` covers. -/
theorem C61_utf32 (F : Form) (sort : SortFn) (hs : ConformingSort sort) (cs out : List Int) (gs : List (List Int))
    (hgs : IsSegmentation Breaks cs gs) (fuel : Nat) (hf : cs.length < fuel)
    (hb : (cs.flatMap (full F.map)).length < 2 ^ 31) (k : Nat) :
    let need : List (List Int) → Nat := fun l => l.flatten.length + l.length
    (need gs ≤ k → ∃ n result, normalize32 F sort fuel cs out = .ok (n, result) ∧
      normalize32X F sort fuel cs out k = .ok (.ret n result (k - need gs))) ∧
    (k < need gs → ∃ j n result, j < gs.length ∧ need (gs.take j) ≤ k ∧ k < need (gs.take (j + 1)) ∧
      normalize32 F sort fuel (gs.take j).flatten out = .ok (n, result) ∧
      normalize32X F sort fuel cs out k = .ok (.threw result)) := by
  have hseg : gs = graphemes cs := segments_unique hgs
  subst hseg
  intro need
  have hneed : ∀ l : List (List Int), total (fun g => g.length + 1) l = need l := by
    intro l
    induction l with
    | nil => rfl
    | cons g l ih => rw [total_cons, ih]; simp only [need, List.flatten_cons, List.length_append, List.length_cons]; omega
  have S := sim_utf32 [] cs [0]
  have hz := sim_utf32_end [] cs 0 []
  have key := F.textX_sim S fuel hf 0 hz (fun a _ => brk_zero a) hs append32X id (fun _ => 1) (fun _ _ => [])
    (fun g _ o k => by rw [append32X, appendCall_eq, List.append_nil]; rfl) (by rw [decompose]; omega) out k
  simp only [List.nil_append, List.length_nil, Nat.zero_add, id, hneed] at key
  change (_ → normalize32X F sort fuel cs out k = _) ∧ (_ → ∃ j, ∃ h, _ ∧ _ ∧ normalize32X F sort fuel cs out k = _) at key
  constructor
  · intro hk
    exact ⟨_, _, normalize32_eq F hs cs out fuel hf hb, key.1 hk⟩
  · intro hk
    obtain ⟨j, hj, h1, h2, h3⟩ := key.2 hk
    refine ⟨j, _, _, hj, h1, h2, normalize32_eq F hs _ out fuel ?_ ?_, ?_⟩
    · have := take_flatten_length_le (graphemes cs) j
      rw [segments_flatten] at this
      omega
    · have := take_decompose_le F.map cs j
      omega
    · rw [h3, Form.text, graphemes_take]
      simp

/-- Instance: "éb" and any number of successful calls. -/
example (k : Nat) := C61_utf32 .D insSort insSort_stable.1 [0xE9, 0x62] [7] [[0xE9], [0x62]]
  (segmentation_of (by decide +kernel)) 3 (by decide) (by decide +kernel) k

theorem append8X_encodable (l : List Int) (h : ∀ x ∈ l, ∃ n : Nat, x = (n : Int) ∧ Encodable n) (out : List UInt8)
    (k : Nat) : append8X out l k = .ok (costed l.length () (out ++ encodeText (l.map Int.toNat))
      (out ++ encodeText ((l.take k).map Int.toNat)) k) := by
  induction l generalizing out k with
  | nil => simp [append8X, appendFromUtf32X, costed, encodeText]
  | cons x l ih =>
    obtain ⟨n, rfl, hn⟩ := h x (by simp)
    have hlt := encodable_lt hn
    have he : encodeOne (BitVec.ofInt 32 n) = .ok (encode n) := by
      have := encodeOne_encodable (BitVec.ofNat 32 n) (by simp; omega) (by
        rw [BitVec.toNat_ofNat, Nat.mod_eq_of_lt (by omega)]; exact hn)
      rw [BitVec.toNat_ofNat, Nat.mod_eq_of_lt (by omega)] at this
      rw [← this]; congr 1
    cases k with
    | zero =>
      simp only [append8X, List.map_cons, appendFromUtf32X]
      rw [he]
      simp [appendCall, costed, encodeText]
    | succ k =>
      have := ih (fun y hy => h y (by simp [hy])) (out ++ encode n) k
      simp only [append8X] at this
      simp only [append8X, List.map_cons, appendFromUtf32X]
      rw [he]
      simp only [Res.bind_ok, appendCall]
      rw [this]
      simp only [costed, List.length_cons, Nat.add_le_add_iff_right, List.take_succ_cons, List.map_cons, encodeText,
        List.flatMap_cons, Int.toNat_natCast, List.append_assoc]
      by_cases hk : l.length ≤ k
      · rw [if_pos hk, if_pos hk]; congr 2; omega
      · rw [if_neg hk, if_neg hk]

/-- C61, UTF-8. Let an allocation fail after `k` successful ones, and let the encoder write the normal form `ns`
correctly (C10). One append per codepoint read and one per codepoint written are needed. If `k` covers them, the
result is the ordinary one. Otherwise the exception leaves in the output, after the previous contents, the UTF-8
encoding of a proper beginning of `ns`: whole codepoints, and at least the normal forms of the graphemes that `k`
covers. -/
theorem C61_utf8 (F : Form) (sort : SortFn) (hs : ConformingSort sort) (cs : List Nat) (h : ∀ c ∈ cs, c < 2 ^ 31)
    (out : List UInt8) (gs : List (List Int)) (hgs : IsSegmentation Breaks (ints cs) gs) (fuel : Nat)
    (hf : cs.length < fuel) (hb : ((ints cs).flatMap (full F.map)).length < 2 ^ 31)
    (ns : List Int) (hns : normalize32 F sort fuel (ints cs) [] = .ok ((ns.length : Int), ns))
    (henc : ∀ x ∈ ns, ∃ n : Nat, x = (n : Int) ∧ Encodable n) (k : Nat) :
    (cs.length + ns.length ≤ k →
      normalize8X F sort fuel cs out k =
        .ok (.ret (ns.length : Int) (out ++ encodeText (ns.map Int.toNat)) (k - (cs.length + ns.length)))) ∧
    (k < cs.length + ns.length → ∃ (j m : Nat) (done : List Int), j < gs.length ∧
      normalize32 F sort fuel (gs.take j).flatten [] = .ok ((done.length : Int), done) ∧
      (gs.take j).flatten.length + done.length ≤ k ∧
      m = done.length + (k - ((gs.take (j + 1)).flatten.length + done.length)) ∧ m < ns.length ∧
      normalize8X F sort fuel cs out k = .ok (.threw (out ++ encodeText ((ns.take m).map Int.toNat)))) := by
  have hseg : gs = graphemes (ints cs) := segments_unique hgs
  subst hseg
  rw [normalize32_eq F hs _ [] fuel (by simpa) hb, List.nil_append] at hns
  simp only [Res.ok.injEq, Prod.mk.injEq] at hns
  obtain rfl := hns.2
  obtain ⟨S, hend⟩ := sim_encodeText cs h [] 0 (by decide) []
  have e3 : [] ++ encodeText cs ++ (encode 0 ++ []) = encodeText cs ++ [0] := by simp [encode]
  rw [e3] at S hend
  have hhom : ∀ a b : List Int, encodeText ((a ++ b).map Int.toNat) =
      encodeText (a.map Int.toNat) ++ encodeText (b.map Int.toNat) := by
    intro a b; simp [encodeText]
  have hlt : (ints cs).length = cs.length := by simp
  have hnat : ∀ x ∈ ints cs, 0 ≤ x := by intro x hx; obtain ⟨n, _, rfl⟩ := List.mem_map.mp hx; simp
  have key := F.textX_prefix (cs := ints cs) S fuel (by rw [hlt]; exact hf) 0 (by simpa using hend) (fun a _ => brk_zero a) hs append8X
    (fun l => encodeText (l.map Int.toNat)) hhom rfl (fun g => (F.result sort g).length) (fun _ k => k)
    (fun g hg o k => append8X_encodable _ (fun x hx => henc x (by
        rw [Form.text]; exact List.mem_flatMap.mpr ⟨g, hg, hx⟩)) o k)
    (by rw [decompose]; omega) out k
  rw [hlt, List.length_nil, upos_zero, upos_encode_end, Nat.zero_add] at key
  change (_ → normalize8X F sort fuel cs out k = _) ∧
    (_ → ∃ j, ∃ h, _ ∧ _ ∧ ∃ m, _ ∧ normalize8X F sort fuel cs out k = _) at key
  rw [← hlt]
  rw [← hlt] at hf
  generalize normalize8X F sort fuel cs out k = run at *
  generalize ints cs = ts at *
  have hneed : ∀ l : List (List Int), total (fun g => g.length + (F.result sort g).length) l =
      l.flatten.length + (l.flatMap (F.result sort)).length := by
    intro l
    induction l with
    | nil => rfl
    | cons g l ih => rw [total_cons, ih, List.flatten_cons, List.flatMap_cons]; simp only [List.length_append]; omega
  simp only [hneed] at key
  rw [segments_flatten] at key
  refine ⟨key.1, fun hk => ?_⟩
  obtain ⟨j, hj, h1, h2, m, hm, h3⟩ := key.2 hk
  have htake : (graphemes ts).take (j + 1) = (graphemes ts).take j ++ [(graphemes ts)[j]] :=
    List.take_succ_eq_append_getElem hj
  have hrl : 0 < (F.result sort (graphemes ts)[j]).length :=
    List.length_pos_iff.mpr (F.result_ne_nil hs (segments_nonempty _ _ _ (List.getElem_mem hj)))
  have hspl : (graphemes ts) = (graphemes ts).take j ++ (graphemes ts)[j] :: (graphemes ts).drop (j + 1) := by
    conv => lhs; rw [← List.take_append_drop j (graphemes ts)]
    rw [List.drop_eq_getElem_cons hj]
  have hsplt : (F.text sort ts).length = (((graphemes ts).take j).flatMap (F.result sort)).length +
      ((F.result sort (graphemes ts)[j]).length + (((graphemes ts).drop (j + 1)).flatMap (F.result sort)).length) := by
    rw [Form.text]
    conv => lhs; rw [hspl]
    rw [List.flatMap_append, List.flatMap_cons, List.length_append, List.length_append]
  have hl2 : ((graphemes ts).take (j + 1)).flatten.length =
      ((graphemes ts).take j).flatten.length + (graphemes ts)[j].length := by
    rw [htake, List.flatten_append, List.length_append, List.flatten_singleton]
  have hl3 : (((graphemes ts).take (j + 1)).flatMap (F.result sort)).length =
      (((graphemes ts).take j).flatMap (F.result sort)).length + (F.result sort (graphemes ts)[j]).length := by
    rw [htake, List.flatMap_append, List.length_append, List.flatMap_singleton]
  have hlen0 := take_flatten_length_le (graphemes ts) j
  rw [segments_flatten] at hlen0
  have hdec := take_decompose_le F.map ts j
  refine ⟨j, (((graphemes ts).take j).flatMap (F.result sort)).length + m,
    ((graphemes ts).take j).flatMap (F.result sort), hj, ?_, h1, ?_, ?_, h3⟩
  · rw [normalize32_eq F hs _ [] fuel (by omega) (by omega), List.nil_append, Form.text, graphemes_take]
  · rw [hl2, hm]
    split <;> omega
  · rw [hsplt, hm]
    split <;> omega

/-- Instance: "éb" and any number of successful calls. -/
example (k : Nat) := C61_utf8 .D insSort insSort_stable.1 [0xE9, 0x62] (by decide) [0x41] [[0xE9], [0x62]]
  (segmentation_of (by decide +kernel)) 3 (by decide) (by decide +kernel) [0x65, 0x301, 0x62] (by decide +kernel)
  (by
    intro x hx
    simp only [List.mem_cons, List.not_mem_nil, or_false] at hx
    rcases hx with rfl | rfl | rfl
    · exact ⟨0x65, rfl, by decide⟩
    · exact ⟨0x301, rfl, by decide⟩
    · exact ⟨0x62, rfl, by decide⟩) k

/-- What `append_from_utf32ne` of an encoding does when allocations fail. -/
structure RefinesX (append : AppendXFn (List α)) (rep : List Nat → List α) (A : Appending) : Prop where
  zero : A.written 0 = 0
  appendCps : ∀ (out : List α) (cs : List Nat) (k : Nat), (∀ c ∈ cs, Encodable c) →
    append out (ints cs) k = .ok (costed (A.calls cs) () (out ++ rep cs) (out ++ rep (cs.take (A.written k))) k)

theorem refines32X : RefinesX append32X (fun cs => ints cs) utf32neAppending where
  zero := rfl
  appendCps out cs k _ := by rw [append32X, appendCall_eq]; simp [utf32neAppending]

theorem ints_map_toNat (cs : List Nat) : (ints cs).map Int.toNat = cs := by
  simp [List.map_map, Function.comp_def]

theorem refines8X : RefinesX append8X encodeText utf8Appending where
  zero := rfl
  appendCps out cs k h := by
    rw [append8X_encodable (ints cs) (fun x hx => by
      obtain ⟨n, hn, rfl⟩ := List.mem_map.mp hx; exact ⟨n, rfl, h n hn⟩), ints_map_toNat, ← List.map_take,
      ints_map_toNat, List.length_map]
    rfl

theorem rep_put {rep : List Nat → List α} (σ : Nat → List Nat) (d : Nat) (cs : List Nat) :
    upd (fun k => rep (σ k)) d (rep cs) = fun k => rep (put σ d cs k) := by
  funext k; simp only [upd, put]; split <;> rfl

theorem stepX_refines [DecidableEq α] {E : Encoding α} {rep : List Nat → List α} (R : Refines E rep)
    {append : AppendXFn (List α)} {A : Appending}
    (X : RefinesX append rep A) {sort : SortFn}
    (hs : ConformingSort sort) (σ : Nat → List Nat) (hσ : Small σ) (op : Op)
    (ha : (libraryData sort).Allowed σ op) (σ1 : Nat → List Nat) (o : Obs) (hid : (libraryData sort).Ideal σ op σ1 o) :
    ∃ N K, (libraryData sort).Needs A σ op K ∧ ∀ fuel, N ≤ fuel → ∀ k,
      (K ≤ k → E.stepX append sort fuel (fun k => rep (σ k)) k op = .ok (.ret o (fun k => rep (σ1 k)) (k - K))) ∧
      (k < K → ∃ σ', (libraryData sort).Interrupted A σ op k σ' ∧
        E.stepX append sort fuel (fun k => rep (σ k)) k op = .ok (.threw (fun k => rep (σ' k)))) := by
  obtain ⟨_, N, hN⟩ := step_refines R hs σ hσ op ha σ1 o hid
  have once : (libraryData sort).Needs A σ op 1 → (libraryData sort).Interrupted A σ op 0 σ →
      (∀ fuel k, E.stepX append sort fuel (fun k => rep (σ k)) k op =
        (E.step sort fuel (fun k => rep (σ k)) op >>= fun r => .ok (appendCall r.2 (fun k => rep (σ k)) r.1 k))) →
      ∃ N K, (libraryData sort).Needs A σ op K ∧ ∀ fuel, N ≤ fuel → ∀ k,
        (K ≤ k → E.stepX append sort fuel (fun k => rep (σ k)) k op = .ok (.ret o (fun k => rep (σ1 k)) (k - K))) ∧
        (k < K → ∃ σ', (libraryData sort).Interrupted A σ op k σ' ∧
          E.stepX append sort fuel (fun k => rep (σ k)) k op = .ok (.threw (fun k => rep (σ' k)))) := by
    intro hneed hint hst
    refine ⟨N, 1, hneed, fun fuel hf k => ?_⟩
    rw [hst, hN fuel hf]
    simp only [Res.bind_ok, appendCall_eq, costed]
    constructor
    · intro hk; rw [if_pos hk]
    · intro hk
      rw [if_neg (by omega)]
      obtain rfl : k = 0 := by omega
      exact ⟨σ, hint, rfl⟩
  have never : (libraryData sort).Needs A σ op 0 → (∀ fuel k, E.stepX append sort fuel (fun k => rep (σ k)) k op =
        (E.step sort fuel (fun k => rep (σ k)) op >>= fun r => .ok (.ret r.2 r.1 k))) →
      ∃ N K, (libraryData sort).Needs A σ op K ∧ ∀ fuel, N ≤ fuel → ∀ k,
        (K ≤ k → E.stepX append sort fuel (fun k => rep (σ k)) k op = .ok (.ret o (fun k => rep (σ1 k)) (k - K))) ∧
        (k < K → ∃ σ', (libraryData sort).Interrupted A σ op k σ' ∧
          E.stepX append sort fuel (fun k => rep (σ k)) k op = .ok (.threw (fun k => rep (σ' k)))) := by
    intro hneed hst
    refine ⟨N, 0, hneed, fun fuel hf k => ?_⟩
    rw [hst, hN fuel hf]
    exact ⟨fun _ => rfl, fun hk => absurd hk (by omega)⟩
  cases op with
  | copy d s => exact once rfl ⟨rfl, rfl⟩ (fun _ _ => rfl)
  | appendRange d s i j => exact once rfl ⟨rfl, rfl⟩ (fun _ _ => rfl)
  | appendGraphemes d s i j => exact once rfl ⟨rfl, rfl⟩ (fun _ _ => rfl)
  | clear d => exact never rfl (fun _ _ => rfl)
  | write s i c => exact never rfl (fun _ _ => rfl)
  | transform s f => exact never rfl (fun _ _ => rfl)
  | read s => exact never rfl (fun _ _ => rfl)
  | readBack s => exact never rfl (fun _ _ => rfl)
  | readGraphemes s => exact never rfl (fun _ _ => rfl)
  | equal s t => exact never rfl (fun _ _ => rfl)
  | less s t => exact never rfl (fun _ _ => rfl)
  | countIf s p => exact never rfl (fun _ _ => rfl)
  | appendCps d v =>
    obtain ⟨⟨cs, rfl, rfl⟩, rfl⟩ := hid
    obtain ⟨cs', hv, henc⟩ := ha
    obtain rfl := ints_injective hv
    refine ⟨0, A.calls cs, ⟨cs, rfl, rfl⟩, fun fuel _ k => ?_⟩
    simp only [Encoding.stepX, X.appendCps _ cs k henc, costed]
    constructor
    · intro hk
      rw [if_pos hk]
      simp only [Res.bind_ok, ← R.append, rep_put]; rfl
    · intro hk
      rw [if_neg (by omega)]
      simp only [Res.bind_ok, ← R.append, rep_put]
      exact ⟨_, ⟨cs, rfl, hk, rfl⟩, rfl⟩
  | normalize F d s =>
    obtain ⟨gs, ns, hgs, hns, rfl, rfl⟩ := hid
    obtain ⟨hne, hbound, henc⟩ := ha
    have henc := henc gs hgs
    obtain ⟨gs0, _, hseg, huniq⟩ := graphemes_nat sort (σ s)
    obtain rfl := huniq _ hgs
    obtain ⟨pos, h0, hl, _, S, hend, _⟩ := R.sim (σ s) (hσ s)
    simp only [libraryData_normal] at henc hns
    have hgt : graphemes (ints (σ s)) = gs.map ints := hseg.symm
    have htext : F.text sort (ints (σ s)) = ints ns := by
      rw [hns, Form.text, hgt, List.flatMap_map]
    have hb : (decompose F.map (ints (σ s))).length ≤ 2147483647 := by
      cases F <;> (simp only [libraryData] at hbound; simp only [Form.map]; omega)
    have hnf : ∀ g, (libraryData sort).normalForm F g = (F.result sort (ints g)).map Int.toNat := by
      intro g; rw [Ucd.normalForm, libraryData_normal]
    have hrepmap : ∀ l : List (List Nat), (l.map ints).flatMap (fun g => rep ((F.result sort g).map Int.toNat)) =
        rep (l.flatMap ((libraryData sort).normalForm F)) := by
      intro l
      induction l with
      | nil => simp [R.nil]
      | cons g l ih => rw [List.map_cons, List.flatMap_cons, List.flatMap_cons, R.append, ih, hnf]
    have hcalls : ∀ l : List (List Nat), total (fun g => g.length + A.calls ((F.result sort g).map Int.toNat))
        (l.map ints) = (libraryData sort).formCalls A F l := by
      intro l
      rw [← total_map ints, Ucd.formCalls, total]
      simp only [hnf, List.length_map]
    have hkey := fun fuel (hf : (σ s).length + 1 ≤ fuel) k =>
      F.textX_sim S fuel (by simp; omega) 0 (by simpa using hend) (fun a _ => brk_zero a) hs append
        (fun l => rep (l.map Int.toNat))
        (fun g => A.calls ((F.result sort g).map Int.toNat))
        (fun g k => rep (((F.result sort g).map Int.toNat).take (A.written k)))
        (fun g hg o k => by
          rw [hgt] at hg
          obtain ⟨g', hg', rfl⟩ := List.mem_map.mp hg
          have hg2 : ints ((F.result sort (ints g')).map Int.toNat) = F.result sort (ints g') :=
            ints_toNat (henc g' hg')
          have := X.appendCps o ((F.result sort (ints g')).map Int.toNat) k (fun c hc => by
            obtain ⟨x, hx, rfl⟩ := List.mem_map.mp hc
            obtain ⟨n, rfl, hn⟩ := henc g' hg' x hx
            simpa using hn)
          rw [hg2] at this
          rw [this]) hb (rep (σ d)) k
    rw [h0, List.length_map, hl, hgt] at hkey
    refine ⟨(σ s).length + 1, (libraryData sort).formCalls A F gs, ⟨gs, hgs, rfl⟩, fun fuel hf k => ?_⟩
    obtain ⟨k1, k2⟩ := hkey fuel hf k
    rw [hcalls, hrepmap] at k1
    rw [hcalls] at k2
    have hns2 : gs.flatMap ((libraryData sort).normalForm F) = ns := by
      have := congrArg (List.map Int.toNat) htext
      rw [ints_map_toNat, Form.text, hgt, List.map_flatMap, List.flatMap_map] at this
      rw [← this]
      congr 1; funext g; exact hnf g
    simp only [Encoding.stepX, if_neg hne]
    constructor
    · intro hk
      rw [k1 hk, htext, hns2, ← R.append]
      simp only [Res.bind_ok, rep_put, List.length_map]; rfl
    · intro hk
      obtain ⟨j, hj, a1, a2, a3⟩ := k2 hk
      rw [List.length_map] at hj
      rw [← List.map_take, hcalls] at a1 a2
      rw [List.take_succ_eq_append_getElem hj] at a2
      rw [← List.map_take, hcalls, hrepmap, List.getElem_map, ← hnf, List.length_map, ← R.append] at a3
      have hg3 : gs = gs.take j ++ gs[j] :: gs.drop (j + 1) := by
        conv => lhs; rw [← List.take_append_drop j gs]
        rw [List.drop_eq_getElem_cons hj]
      refine ⟨_, ⟨gs.take j, gs[j], gs.drop (j + 1), by rw [← hg3]; exact hgs, a1, a2, rfl⟩, ?_⟩
      rw [a3]
      simp only [Res.bind_ok, Res.pure_eq]
      rw [← rep_put, R.append]
      congr 4
      split
      · rw [Nat.sub_eq_zero_of_le (by omega), X.zero, List.take_zero]
        simp only [R.append, R.nil]
      · simp only [R.append]

theorem runX_refines [DecidableEq α] {E : Encoding α} {rep : List Nat → List α} (R : Refines E rep)
    {append : AppendXFn (List α)} {A : Appending}
    (X : RefinesX append rep A) {sort : SortFn}
    (hs : ConformingSort sort) (ops : List Op) (σ : Nat → List Nat) (hσ : Small σ)
    (ha : (libraryData sort).AllowedRun σ ops) (σ' : Nat → List Nat) (os : List Obs)
    (hid : (libraryData sort).IdealRun σ ops σ' os) :
    ∃ N K, (libraryData sort).NeedsRun A σ ops K ∧ ∀ fuel, N ≤ fuel → ∀ k,
      (K ≤ k → E.runX append sort fuel (fun k => rep (σ k)) k ops = .ok (fun k => rep (σ' k), os, false)) ∧
      (k < K → ∃ done op rest σ1 os1 σ2 n, ops = done ++ op :: rest ∧ (libraryData sort).IdealRun σ done σ1 os1 ∧
        (libraryData sort).NeedsRun A σ done n ∧ n ≤ k ∧ (libraryData sort).Interrupted A σ1 op (k - n) σ2 ∧
        E.runX append sort fuel (fun k => rep (σ k)) k ops = .ok (fun k => rep (σ2 k), os1, true)) := by
  induction hid with
  | nil σ => exact ⟨0, 0, .nil σ, fun fuel _ k => ⟨fun _ => rfl, fun hk => absurd hk (by omega)⟩⟩
  | cons σ σ1 σ2 op ops o os h1 h2 ih =>
    obtain ⟨ha1, ha2⟩ := ha
    obtain ⟨hs1, _⟩ := step_refines R hs σ hσ op ha1 σ1 o h1
    obtain ⟨N, K, hK, hN⟩ := stepX_refines R X hs σ hσ op ha1 σ1 o h1
    obtain ⟨M, L, hL, hM⟩ := ih hs1 (ha2 σ1 o h1)
    refine ⟨max N M, K + L, .cons σ σ1 op ops o K L h1 hK hL, fun fuel hf k => ?_⟩
    obtain ⟨n1, n2⟩ := hN fuel (by omega) k
    obtain ⟨m1, m2⟩ := hM fuel (by omega) (k - K)
    constructor
    · intro hk
      simp only [Encoding.runX, n1 (by omega), Res.bind_ok, m1 (by omega), Res.pure_eq]
    · intro hk
      by_cases hk2 : K ≤ k
      · obtain ⟨done, op', rest, τ, os1, τ2, n, e1, e2, e3, e4, e5, e6⟩ := m2 (by omega)
        refine ⟨op :: done, op', rest, τ, o :: os1, τ2, K + n, by rw [e1]; rfl, .cons σ σ1 τ op done o os1 h1 e2,
          .cons σ σ1 op done o K n h1 hK e3, by omega, by rw [Nat.sub_add_eq]; exact e5, ?_⟩
        simp only [Encoding.runX, n1 hk2, Res.bind_ok, e6, Res.pure_eq]
      · obtain ⟨σ', i1, i2⟩ := n2 (by omega)
        refine ⟨[], op, ops, σ, [], σ', 0, rfl, .nil σ, .nil σ, by omega, i1, ?_⟩
        simp only [Encoding.runX, i2, Res.bind_ok, Res.pure_eq]

/-- C61, programs in UTF-8. Let a program be allowed (C56); it needs `K` calls that may throw (Spec/Throw.lean). Let
`k` of them succeed and the next one throw. If `k` is enough the program runs to its end as it should. Otherwise it
runs as it should up to some statement `op` and is interrupted there: everything printed before is right, and the
strings are those the statement started with, except that the string it was appending to has got the codepoints
written so far. Every string is the encoding of whole codepoints. -/
theorem C61_programs_utf8 (sort : SortFn) (hs : ConformingSort sort) (ops : List Op) (σ : Nat → List Nat)
    (hσ : ∀ k, ∀ c ∈ σ k, c < 2 ^ 31) (ha : (libraryData sort).AllowedRun σ ops) :
    ∃ σ' os N K, (libraryData sort).IdealRun σ ops σ' os ∧ (libraryData sort).NeedsRun utf8Appending σ ops K ∧
      ∀ fuel, N ≤ fuel → ∀ k,
      (K ≤ k → enc8.runX append8X sort fuel (fun k => encodeText (σ k)) k ops =
        .ok (fun k => encodeText (σ' k), os, false)) ∧
      (k < K → ∃ done op rest σ1 os1 σ2 n, ops = done ++ op :: rest ∧ (libraryData sort).IdealRun σ done σ1 os1 ∧
        (libraryData sort).NeedsRun utf8Appending σ done n ∧ n ≤ k ∧
        (libraryData sort).Interrupted utf8Appending σ1 op (k - n) σ2 ∧
        enc8.runX append8X sort fuel (fun k => encodeText (σ k)) k ops = .ok (fun k => encodeText (σ2 k), os1, true)) := by
  obtain ⟨σ', os, hid⟩ := idealRun_exists sort ops σ ha
  obtain ⟨N, K, hK, h⟩ := runX_refines refines8 refines8X hs ops σ hσ ha σ' os hid
  exact ⟨σ', os, N, K, hid, hK, h⟩

/-- C61, programs with utf32ne strings: the same; here an interrupted append of codepoints or of a grapheme has
appended nothing. -/
theorem C61_programs_utf32 (sort : SortFn) (hs : ConformingSort sort) (ops : List Op) (σ : Nat → List Nat)
    (hσ : ∀ k, ∀ c ∈ σ k, c < 2 ^ 31) (ha : (libraryData sort).AllowedRun σ ops) :
    ∃ σ' os N K, (libraryData sort).IdealRun σ ops σ' os ∧ (libraryData sort).NeedsRun utf32neAppending σ ops K ∧
      ∀ fuel, N ≤ fuel → ∀ k,
      (K ≤ k → enc32.runX append32X sort fuel (fun k => ints (σ k)) k ops =
        .ok (fun k => ints (σ' k), os, false)) ∧
      (k < K → ∃ done op rest σ1 os1 σ2 n, ops = done ++ op :: rest ∧ (libraryData sort).IdealRun σ done σ1 os1 ∧
        (libraryData sort).NeedsRun utf32neAppending σ done n ∧ n ≤ k ∧
        (libraryData sort).Interrupted utf32neAppending σ1 op (k - n) σ2 ∧
        enc32.runX append32X sort fuel (fun k => ints (σ k)) k ops = .ok (fun k => ints (σ2 k), os1, true)) := by
  obtain ⟨σ', os, hid⟩ := idealRun_exists sort ops σ ha
  obtain ⟨N, K, hK, h⟩ := runX_refines refines32 refines32X hs ops σ hσ ha σ' os hid
  exact ⟨σ', os, N, K, hid, hK, h⟩

/-- `C61_programs_utf8` and `C61_programs_utf32` applied to the sample program. -/
example := C61_programs_utf8 insSort insSort_stable.1 sampleProgram sampleStore (by
    intro k c hc
    simp only [sampleStore] at hc
    split at hc <;> simp at hc
    rcases hc with rfl | rfl <;> decide)
  ((C56_allowed_checkable insSort sampleProgram sampleStore).mp (by decide +kernel))

example := C61_programs_utf32 insSort insSort_stable.1 sampleProgram sampleStore (by
    intro k c hc
    simp only [sampleStore] at hc
    split at hc <;> simp at hc
    rcases hc with rfl | rfl <;> decide)
  ((C56_allowed_checkable insSort sampleProgram sampleStore).mp (by decide +kernel))

/-- Non-vacuity: every crash point of a small normalization, in both encodings. -/
example : (List.range 7).map (fun k => normalize8X .D insSort 9 [0xE9, 0x62] [0x41] k) =
      [.ok (.threw [0x41]), .ok (.threw [0x41]), .ok (.threw ([0x41] ++ encodeText [0x65])),
        .ok (.threw ([0x41] ++ encodeText [0x65, 0x301])), .ok (.threw ([0x41] ++ encodeText [0x65, 0x301])),
        .ok (.ret 3 ([0x41] ++ encodeText [0x65, 0x301, 0x62]) 0),
        .ok (.ret 3 ([0x41] ++ encodeText [0x65, 0x301, 0x62]) 1)] ∧
    (List.range 5).map (fun k => normalize32X .D insSort 9 [0xE9, 0x62] [0x41] k) =
      [.ok (.threw [0x41]), .ok (.threw [0x41]), .ok (.threw [0x41, 0x65, 0x301]), .ok (.threw [0x41, 0x65, 0x301]),
        .ok (.ret 3 [0x41, 0x65, 0x301, 0x62] 0)] := by decide +kernel

/-- Non-vacuity of the program theorem: the program of C56, interrupted. -/
example : allowedRunB insSort sampleStore sampleProgram = true ∧
    (match enc8.runX append8X insSort 20 (fun k => encodeText (sampleStore k)) 3 sampleProgram with
      | .ok (_, os, t) => t && decide (os.length < sampleProgram.length)
      | _ => false) = true ∧
    (match enc8.runX append8X insSort 20 (fun k => encodeText (sampleStore k)) 100 sampleProgram with
      | .ok (_, os, t) => !t && decide (os = sampleOutput)
      | _ => false) = true := by decide +kernel

end U5e
