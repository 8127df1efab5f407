import Verif.Spec.History
import Verif.Proofs.Std
import Verif.Properties.Append
import Verif.Properties.GraphemeAt
import Verif.Properties.Normalize
/-!
# C56: whole programs

Any program over strings (Model/History.lean), run on UTF-8 strings and on utf32ne strings, does what it
should do on sequences of codepoints (Spec/History.lean).
-/
namespace U5e
open Spec

/-- The tables of the library and a sort, as the data of the specification. -/
def libraryData (sort : SortFn) : Ucd where
  gcb := gcbResolve
  canonical := decResolve
  compatibility := kdecResolve
  composition := compResolve
  sortMarks := sort canonicalCombiningOrder

/-- What one encoding has to provide for the induction: `rep` is how a sequence of codepoints is stored. -/
structure Refines (E : Encoding α) (rep : List Nat → List α) : Prop where
  append : ∀ a b, rep (a ++ b) = rep a ++ rep b
  nil : rep [] = []
  sim : ∀ cs : List Nat, (∀ c ∈ cs, c < 2 ^ 31) → ∃ pos : Nat → Nat, pos 0 = 0 ∧ pos cs.length = (rep cs).length ∧
    (∀ i, i ≤ cs.length → pos i = (rep (cs.take i)).length) ∧
    Sim (E.over (rep cs)) pos (ints cs) ∧
    (E.over (rep cs)).deref (pos cs.length) = .ok (0, pos cs.length) ∧
    ∀ ds i j, i ≤ j → j ≤ cs.length →
      E.appendRange (rep ds) (rep cs ++ [E.nul]) (pos i) (pos j) = .ok (rep (ds ++ (cs.take j).drop i))
  appendCps : ∀ (out : List α) (cs : List Nat), (∀ c ∈ cs, Encodable c) →
    E.appendCps out (ints cs) = .ok (out ++ rep cs)
  appendGraphemes : ∀ (I : CpIter) fuel (out : List α) (cs : List Nat) (a b : GIter),
    readRange I b.where_ fuel a.where_ = .ok (ints cs) → (∀ c ∈ cs, c < 0x80) →
    E.appendGraphemes I fuel out a b = .ok (out ++ rep cs)
  assign : ∀ (pre post : List Nat) (old n : Nat), (∀ c ∈ pre ++ old :: post, c < 2 ^ 31) → Encodable n →
    (encode n).length = (encode old).length →
    (rep (pre ++ n :: post)).length = (rep (pre ++ old :: post)).length ∧
    ∃ q, E.assign (rep (pre ++ old :: post) ++ [E.nul]) (rep pre).length n = .ok (rep (pre ++ n :: post) ++ [E.nul], q) ∧
      (E.over (rep (pre ++ n :: post))).inc q = .ok (rep (pre ++ [n])).length

theorem encodable_lt {c : Nat} (h : Encodable c) : c < 2 ^ 31 := by unfold Encodable at h; omega

theorem ints_injective {a b : List Nat} (h : ints a = ints b) : a = b := by
  have := congrArg (List.map Int.toNat) h
  simpa [List.map_map, Function.comp_def] using this

theorem ints_lt (xs : List Nat) : ∀ ys : List Nat, (ints xs < ints ys ↔ xs < ys) := by
  induction xs with
  | nil => intro ys; cases ys <;> simp
  | cons x xs ih =>
    intro ys
    cases ys with
    | nil => simp
    | cons y ys =>
      have := ih ys
      simp only [ints] at this ⊢
      rw [List.map_cons, List.map_cons, List.cons_lt_cons_iff, List.cons_lt_cons_iff, this]
      simp [Int.ofNat_lt, Int.ofNat_inj]

theorem refines32 : Refines enc32 (fun cs => ints cs) where
  append a b := by simp
  nil := rfl
  sim cs _ := by
    refine ⟨fun i => i, rfl, by simp, ?_, ?_, ?_, ?_⟩
    · intro i hi; simp; omega
    · have := sim_utf32 [] (ints cs) [0]
      simpa [Encoding.over, enc32] using this
    · have := sim_utf32_end [] (ints cs) 0 []
      simpa [Encoding.over, enc32] using this
    · intro ds i j hij hj
      show appendRange32 _ _ _ _ = _
      rw [appendRange32, if_pos (by simp; omega)]
      congr 1
      simp only [ints, List.map_append, List.map_drop, List.map_take]
      rw [List.take_append_of_le_length (by simpa using hj)]
  appendCps out cs _ := rfl
  appendGraphemes I fuel out cs a b h _ := by
    show appendGraphemes32 _ _ _ _ _ = _
    rw [appendGraphemes32, h]; rfl
  assign pre post old n _ _ _ := by
    refine ⟨by simp, pre.length, ?_, ?_⟩
    · show assign32 _ _ _ = _
      rw [assign32, if_pos (by simp)]
      simp
    · show (utf32Iter _).inc _ = _
      simp [utf32Iter, enc32]

theorem refines8 : Refines enc8 encodeText where
  append a b := by simp [encodeText]
  nil := rfl
  sim cs h := by
    have e3 : [] ++ encodeText cs ++ (encode 0 ++ []) = encodeText cs ++ [0] := by simp [encode]
    obtain ⟨S, hend⟩ := sim_encodeText cs h [] 0 (by decide) []
    rw [e3] at S hend
    refine ⟨upos 0 (cs.map encode), upos_zero _ _, by rw [upos_encode_end, Nat.zero_add],
      fun i _ => by rw [upos_encode, Nat.zero_add], S, hend, ?_⟩
    intro ds i j hij hj
    have hi := unitIndex_upos _ (wellShaped_encode cs h) i (by simp; omega)
    have hj' := unitIndex_upos _ (wellShaped_encode cs h) j (by simpa)
    have hle : (encodeText (cs.take i)).length ≤ (encodeText (cs.take j)).length := by
      have : cs.take j = cs.take i ++ (cs.take j).drop i := by
        conv => lhs; rw [← List.take_append_drop i (cs.take j), List.take_take, Nat.min_eq_left hij]
      rw [this]; simp [encodeText]
    have hle2 : (encodeText (cs.take j)).length ≤ (encodeText cs).length := by
      conv => rhs; rw [← List.take_append_drop j cs]
      simp only [encodeText, List.flatMap_append, List.length_append]; omega
    have := C18_append_codepoints ds [] [] 0 (by decide) cs h _ _ hle hle2
    rw [← List.map_take, ← encodeText_flatten] at hi hj'
    rw [hi, hj'] at this
    rw [upos_encode, upos_encode]
    exact this
  appendCps out cs h := by
    have := append8_encodable out (ints cs) (fun x hx => by
      obtain ⟨c, hc, rfl⟩ := List.mem_map.mp hx
      exact ⟨c, rfl, h c hc⟩)
    have e : (ints cs).map Int.toNat = cs := by simp [List.map_map, Function.comp_def]
    rw [e] at this; exact this
  appendGraphemes I fuel out cs a b h h7 := by
    show appendGraphemes8 _ _ _ _ _ = _
    rw [appendGraphemes8, h, ← (narrow_eq_encode cs).mpr h7]
    simp only [Res.bind_ok, Res.pure_eq, List.map_map]
    congr 2
  assign pre post old n h henc hlen := by
    have h31 := encodable_lt henc
    have hold : old < 2 ^ 31 := h old (by simp)
    have e (x : Nat) : encodeText (pre ++ x :: post) = encodeText pre ++ encode x ++ encodeText post := by
      simp [encodeText]
    have hr := cur_unit (encode_isUnit old hold) (holds_append (encodeText pre) (encode old) (encodeText post ++ [0]))
      (encode_isUnit old hold).length_pos
    have hw := (C09_write_read n henc (encodeText pre) (encode old) (encodeText post ++ [0]) hlen.symm ⟨_, hr⟩).1
    refine ⟨by simp [e, hlen], (encodeText pre).length + (encode n).length - 1, ?_, ?_⟩
    · show U5e.assign _ _ _ = _
      rw [e, e, List.append_assoc _ (encodeText post), List.append_assoc _ (encodeText post)]
      exact hw
    · show fwd _ _ = _
      have hp := (encode_isUnit n h31).length_pos
      have hf := fwd_unit (encode_isUnit n h31) (holds_append (encodeText pre) (encode n) (encodeText post ++ [0]))
        (i := (encode n).length - 1) (by omega)
      rw [e]
      show fwd (encodeText pre ++ encode n ++ encodeText post ++ [0]) _ = _
      rw [List.append_assoc _ (encodeText post), Nat.add_sub_assoc hp, hf]
      simp [encodeText]

/-- The graphemes of a sequence of codepoints exist, are unique and are what the iterators compute. -/
theorem graphemes_nat (sort : SortFn) (cs : List Nat) : ∃ gs : List (List Nat),
    (libraryData sort).Graphemes cs gs ∧ gs.map ints = segments isGraphemeBoundary (ints cs) ∧
    ∀ gs', (libraryData sort).Graphemes cs gs' → gs' = gs := by
  have hseg : ∀ g ∈ segments isGraphemeBoundary (ints cs), ints (g.map Int.toNat) = g := by
    intro g hg
    have hmem : ∀ x ∈ g, ∃ c : Nat, x = c := by
      intro x hx
      have : x ∈ ints cs := by
        rw [← segments_flatten isGraphemeBoundary (ints cs)]
        exact List.mem_flatten.mpr ⟨g, hg, hx⟩
      obtain ⟨c, _, rfl⟩ := List.mem_map.mp this
      exact ⟨c, rfl⟩
    rw [ints, List.map_map]
    conv => rhs; rw [← List.map_id g]
    refine List.map_congr_left fun x hx => ?_
    obtain ⟨c, rfl⟩ := hmem x hx
    simp
  have hmap : ((segments isGraphemeBoundary (ints cs)).map (fun g => g.map Int.toNat)).map ints =
      segments isGraphemeBoundary (ints cs) := by
    rw [List.map_map]
    conv => rhs; rw [← List.map_id (segments isGraphemeBoundary (ints cs))]
    exact List.map_congr_left hseg
  refine ⟨_, ?_, hmap, ?_⟩
  · rw [Ucd.Graphemes, hmap]; exact segments_breaks (ints cs)
  · intro gs' h'
    have h2 : gs'.map ints = segments isGraphemeBoundary (ints cs) := segments_unique h'
    rw [← h2, List.map_map]
    conv => lhs; rw [← List.map_id gs']
    refine List.map_congr_left fun g _ => ?_
    simp [ints, List.map_map, Function.comp_def]

theorem libraryData_normal (sort : SortFn) (F : Form) (g : List Int) :
    (libraryData sort).normal F g = F.result sort g := by cases F <;> rfl

theorem readBackRange_sim {I : CpIter} {pos : Nat → Nat} {cs : List Int} (S : Sim I pos cs) (fuel i : Nat)
    (hi : i ≤ cs.length) (hf : i < fuel) : readBackRange I (pos 0) fuel (pos i) = .ok (cs.take i).reverse := by
  induction fuel generalizing i with
  | zero => omega
  | succ fuel ih =>
    rw [readBackRange, S.eq i 0 hi (Nat.zero_le _), Res.bind_ok]
    cases i with
    | zero => simp
    | succ i =>
      obtain ⟨c, hc, _⟩ := drop_cons_of_lt (l := cs) (i := i) (by omega)
      simp only [Nat.add_one_ne_zero, decide_false, Bool.false_eq_true, if_false]
      rw [S.dec i (by omega)]
      simp only [Res.bind_ok, S.deref i c hc, Res.pure_eq]
      rw [ih i (by omega) (by omega), List.take_add_one, hc]
      simp

/-- All stored codepoints fit the encodings. -/
def Small (σ : Nat → List Nat) : Prop := ∀ k, ∀ c ∈ σ k, c < 2 ^ 31

theorem small_upd {σ : Nat → List Nat} (h : Small σ) (d : Nat) {cs : List Nat} (hc : ∀ c ∈ cs, c < 2 ^ 31) :
    Small (put σ d cs) := by
  intro k c hk
  rw [put] at hk
  split at hk
  · exact hc c hk
  · exact h k c hk

theorem comp_upd (rep : List Nat → α) (σ : Nat → List Nat) (d : Nat) (cs : List Nat) :
    (fun k => rep (put σ d cs k)) = upd (fun k => rep (σ k)) d (rep cs) := by
  funext k; simp only [upd, put]; split <;> rfl

/-- The ideal step of an allowed operation exists, is unique, and any encoding that refines sequences of
codepoints performs it. -/
theorem stored_nul [DecidableEq α] (E : Encoding α) (s : List α) : E.stored (s ++ [E.nul]) = .ok s := by
  simp [Encoding.stored]

/-- The loop of `transform` after the codepoints `done` have been written. -/
theorem transformLoop_eq {E : Encoding α} {rep : List Nat → List α} (R : Refines E rep) (f : Int → Int)
    (todo : List Nat) : ∀ (done : List Nat) (fuel last : Nat), (∀ c ∈ done ++ todo, c < 2 ^ 31) →
    (∀ c ∈ todo, ∃ n : Nat, f c = n ∧ Encodable n ∧ (encode n).length = (encode c).length) →
    last = (rep (done ++ todo)).length → todo.length < fuel →
    ∃ todo' : List Nat, ints todo' = (ints todo).map f ∧ (∀ c ∈ todo', c < 2 ^ 31) ∧
      E.transformLoop f last fuel (rep (done ++ todo) ++ [E.nul]) (rep done).length =
        .ok (rep (done ++ todo') ++ [E.nul]) := by
  induction todo with
  | nil =>
    intro done fuel last h31 _ hlast hf
    obtain ⟨fuel, rfl⟩ : ∃ k, fuel = k + 1 := ⟨fuel - 1, by simp at hf; omega⟩
    obtain ⟨pos, _, hl, _, S, _, _⟩ := R.sim (done ++ []) h31
    refine ⟨[], rfl, by simp, ?_⟩
    have he := S.eq (done ++ []).length (done ++ []).length (by simp) (by simp)
    rw [hl, ← hlast] at he
    have : (rep done).length = last := by rw [hlast, List.append_nil]
    rw [Encoding.transformLoop, this]
    show (((E.over (rep (done ++ []))).eq last last) >>= _) = _
    rw [he]
    simp
  | cons c todo ih =>
    intro done fuel last h31 ha hlast hf
    obtain ⟨fuel, rfl⟩ : ∃ k, fuel = k + 1 := ⟨fuel - 1, by simp at hf; omega⟩
    obtain ⟨n, hfc, henc, hsz⟩ := ha c (by simp)
    obtain ⟨pos, _, hl, hpos, S, _, _⟩ := R.sim (done ++ c :: todo) h31
    obtain ⟨hlen, q, hq, hinc⟩ := R.assign done todo c n h31 henc hsz
    have hp := hpos done.length (by simp)
    rw [List.take_left'] at hp
    · have he := S.eq done.length (done ++ c :: todo).length (by simp) (by simp)
      rw [hl, hp, ← hlast] at he
      have hd := S.deref done.length c (by simp [ints])
      rw [hp] at hd
      have e1 : done ++ n :: todo = (done ++ [n]) ++ todo := by simp
      obtain ⟨t', ht', h31', hloop⟩ := ih (done ++ [n]) fuel last (by
          intro x hx
          simp only [List.append_assoc, List.mem_append, List.mem_cons, List.not_mem_nil, or_false] at hx
          rcases hx with hx | rfl | hx
          · exact h31 x (by simp [hx])
          · exact encodable_lt henc
          · exact h31 x (by simp [hx]))
        (fun x hx => ha x (by simp [hx])) (by rw [hlast, ← hlen, e1]) (by simp at hf; omega)
      refine ⟨n :: t', by simp [ht', hfc], ?_, ?_⟩
      · intro x hx
        rcases List.mem_cons.mp hx with rfl | hx
        · exact encodable_lt henc
        · exact h31' x hx
      · rw [Encoding.transformLoop]
        show (((E.over (rep (done ++ c :: todo))).eq _ _) >>= _) = _
        rw [he]
        simp only [Res.bind_ok]
        rw [decide_eq_false (by simp)]
        simp only [Bool.false_eq_true, if_false]
        show (((E.over (rep (done ++ c :: todo))).deref _) >>= _) = _
        rw [hd]
        simp only [Res.bind_ok, hfc, hq]
        show (((E.over (rep (done ++ n :: todo))).inc _) >>= _) = _
        rw [hinc, Res.bind_ok, e1, hloop]
        simp
    · rfl

theorem step_refines [DecidableEq α] {E : Encoding α} {rep : List Nat → List α} (R : Refines E rep) {sort : SortFn}
    (hs : ConformingSort sort) (σ : Nat → List Nat) (hσ : Small σ) (op : Op)
    (ha : (libraryData sort).Allowed σ op) (σ1 : Nat → List Nat) (o : Obs) (hid : (libraryData sort).Ideal σ op σ1 o) :
    Small σ1 ∧ ∃ N, ∀ fuel, N ≤ fuel →
      E.step sort fuel (fun k => rep (σ k)) op = .ok (fun k => rep (σ1 k), o) := by
  cases op with
  | copy d s =>
    obtain ⟨rfl, rfl⟩ := hid
    refine ⟨small_upd hσ d (hσ s), 0, fun fuel _ => ?_⟩
    rw [comp_upd]; rfl
  | clear d =>
    obtain ⟨rfl, rfl⟩ := hid
    refine ⟨small_upd hσ d (by simp), 0, fun fuel _ => ?_⟩
    rw [comp_upd, R.nil]; rfl
  | appendRange d s i j =>
    obtain ⟨rfl, rfl⟩ := hid
    obtain ⟨hij, hj⟩ := ha
    obtain ⟨pos, h0, _, _, S, _, happ⟩ := R.sim (σ s) (hσ s)
    refine ⟨small_upd hσ d ?_, 0, fun fuel _ => ?_⟩
    · intro c hc
      rcases List.mem_append.mp hc with h | h
      · exact hσ d c h
      · exact hσ s c (List.mem_of_mem_take (List.mem_of_mem_drop h))
    · have h1 := stdNext_sim S i 0 (by simp; omega)
      have h2 := stdNext_sim S j 0 (by simp; omega)
      rw [h0, Nat.zero_add] at h1 h2
      simp only [Encoding.step, h1, h2, Res.bind_ok, happ (σ d) i j hij hj, Res.pure_eq]
      rw [comp_upd]
  | appendCps d v =>
    obtain ⟨⟨cs, hv, rfl⟩, rfl⟩ := hid
    obtain ⟨cs', hv', henc⟩ := ha
    obtain rfl := ints_injective (hv.symm.trans hv')
    refine ⟨small_upd hσ d ?_, 0, fun fuel _ => ?_⟩
    · intro c hc
      rcases List.mem_append.mp hc with h | h
      · exact hσ d c h
      · exact encodable_lt (henc c h)
    · simp only [Encoding.step, hv, R.appendCps _ cs henc, Res.bind_ok, Res.pure_eq]
      rw [comp_upd, R.append]
  | appendGraphemes d s i j =>
    obtain ⟨⟨gs, hgs, rfl⟩, rfl⟩ := hid
    obtain ⟨gs', hgs', hij, hj, h7⟩ := ha
    obtain ⟨gs0, _, hseg, huniq⟩ := graphemes_nat sort (σ s)
    obtain rfl := huniq _ hgs
    obtain rfl := huniq _ hgs'
    obtain ⟨pos, h0, hl, _, S, _, _⟩ := R.sim (σ s) (hσ s)
    refine ⟨small_upd hσ d ?_, (σ s).length + 1, fun fuel hf => ?_⟩
    · intro c hc
      rcases List.mem_append.mp hc with h | h
      · exact hσ d c h
      · obtain ⟨g, hg, hcg⟩ := List.mem_flatten.mp h
        have := h7 g hg c hcg
        omega
    · have hf' : (ints (σ s)).length < fuel := by simp; omega
      have hgi := graphemeN_sim S fuel hf' i
      have hgj := graphemeN_sim S fuel hf' j
      have hj2 : j ≤ (segments isGraphemeBoundary (ints (σ s))).length := by rw [← hseg]; simpa
      have hmono : segStart (ints (σ s)) i ≤ segStart (ints (σ s)) j := by
        rcases Nat.lt_or_eq_of_le hij with h | h
        · have := segStart_mono_lt (ints (σ s)) h hj2; omega
        · rw [h]; exact Nat.le_refl _
      have hle := segStart_le (ints (σ s)) j
      have hr := readRange_eq S _ _ hmono hle fuel (by omega)
      have ht := take_drop_flatten (gs := segments isGraphemeBoundary (ints (σ s))) i j hij
      rw [segments_flatten] at ht
      have hbt : ((ints (σ s)).take (segStart (ints (σ s)) j)).drop (segStart (ints (σ s)) i)
          = ints ((gs'.take j).drop i).flatten := by
        rw [segStart, segStart, ht, ← hseg]
        simp [ints, List.map_flatten, List.map_take, List.map_drop]
      rw [hbt] at hr
      rw [List.length_map, h0, hl] at hgi hgj
      simp only [Encoding.step, hgi, hgj, Res.bind_ok]
      rw [R.appendGraphemes _ _ _ _ _ _ hr (fun c hc => by
        obtain ⟨g, hg, hcg⟩ := List.mem_flatten.mp hc
        exact h7 g hg c hcg)]
      simp only [Res.bind_ok, Res.pure_eq]
      rw [comp_upd, R.append]
  | write s i c =>
    obtain ⟨⟨n, hc, rfl⟩, rfl⟩ := hid
    obtain ⟨n', old, hc', hold, henc, hsz⟩ := ha
    obtain rfl : n = n' := by omega
    have hi : i < (σ s).length := (List.getElem?_eq_some_iff.mp hold).1
    have hsplit : σ s = (σ s).take i ++ old :: (σ s).drop (i + 1) := by
      conv => lhs; rw [← List.take_append_drop i (σ s), List.drop_eq_getElem_cons hi]
      rw [(List.getElem?_eq_some_iff.mp hold).2]
    have hset : (σ s).set i n = (σ s).take i ++ n :: (σ s).drop (i + 1) := List.set_eq_take_append_cons_drop.trans (by simp [hi])
    obtain ⟨pos, h0, _, hpos, S, _, _⟩ := R.sim (σ s) (hσ s)
    obtain ⟨_, q, hq, _⟩ := R.assign _ _ old n (by rw [← hsplit]; exact hσ s) henc hsz
    refine ⟨small_upd hσ s ?_, 0, fun fuel _ => ?_⟩
    · intro x hx
      rcases List.mem_or_eq_of_mem_set hx with h | rfl
      · exact hσ s x h
      · exact encodable_lt henc
    · have h1 := stdNext_sim S i 0 (by simp; omega)
      rw [h0, Nat.zero_add, hpos i (by omega)] at h1
      rw [← hsplit, ← hset] at hq
      simp only [Encoding.step, h1, Res.bind_ok, hc, hq, stored_nul, Res.pure_eq]
      rw [comp_upd]
  | transform s f =>
    obtain ⟨⟨cs, hcs, rfl⟩, rfl⟩ := hid
    refine ⟨small_upd hσ s ?_, (σ s).length + 1, fun fuel hf => ?_⟩
    · obtain ⟨t, ht, h31, _⟩ := transformLoop_eq R f (σ s) [] _ _ (hσ s) ha rfl (Nat.lt_succ_self _)
      obtain rfl := ints_injective (hcs.trans ht.symm)
      exact h31
    · obtain ⟨t, ht, _, hl⟩ := transformLoop_eq R f (σ s) [] fuel _ (hσ s) ha rfl (by omega)
      obtain rfl := ints_injective (hcs.trans ht.symm)
      simp only [List.nil_append, R.nil, List.length_nil] at hl
      simp only [Encoding.step, hl, Res.bind_ok, stored_nul, Res.pure_eq]
      rw [comp_upd]
  | normalize F d s =>
    obtain ⟨gs, ns, hgs, hns, rfl, rfl⟩ := hid
    obtain ⟨hne, hbound, henc⟩ := ha
    have henc := henc gs hgs
    obtain ⟨gs0, _, hseg, huniq⟩ := graphemes_nat sort (σ s)
    obtain rfl := huniq _ hgs
    obtain ⟨pos, h0, hl, _, S, hend, _⟩ := R.sim (σ s) (hσ s)
    simp only [libraryData_normal] at henc hns
    have hencN : ∀ c ∈ ns, Encodable c := by
      intro c hc
      have : (c : Int) ∈ ints ns := List.mem_map_of_mem (f := Int.ofNat) hc
      rw [hns] at this
      obtain ⟨g, hg, hx⟩ := List.mem_flatMap.mp this
      obtain ⟨n, hn, hne⟩ := henc g hg _ hx
      obtain rfl : c = n := by omega
      exact hne
    refine ⟨small_upd hσ d ?_, (σ s).length + 1, fun fuel hf => ?_⟩
    · intro c hc
      rcases List.mem_append.mp hc with h | h
      · exact hσ d c h
      · exact encodable_lt (hencN c h)
    · have hb : (decompose F.map (ints (σ s))).length ≤ 2147483647 := by
        cases F <;> (simp only [libraryData] at hbound; simp only [Form.map]; omega)
      have hgt : graphemes (ints (σ s)) = gs.map ints := hseg.symm
      have := F.text_sim S fuel (by simp; omega) 0 (by simpa using hend) (fun a _ => brk_zero a) hs E.appendCps
        (fun l => rep (l.map Int.toNat))
        (fun g hg o => by
          rw [hgt] at hg
          obtain ⟨g', hg', rfl⟩ := List.mem_map.mp hg
          have hg2 : ints ((F.result sort (ints g')).map Int.toNat) = F.result sort (ints g') := by
            rw [ints, List.map_map]
            conv => rhs; rw [← List.map_id (F.result sort (ints g'))]
            refine List.map_congr_left fun x hx => ?_
            obtain ⟨n, rfl, _⟩ := henc g' hg' x hx
            simp
          conv => lhs; rw [← hg2]
          refine R.appendCps o _ fun c hc => ?_
          obtain ⟨x, hx, rfl⟩ := List.mem_map.mp hc
          obtain ⟨n, rfl, hn⟩ := henc g' hg' x hx
          simpa using hn) hb (rep (σ d))
      have htext : F.text sort (ints (σ s)) = ints ns := by
        rw [hns, Form.text, hgt, List.flatMap_map]
      have hrep : (graphemes (ints (σ s))).flatMap (fun g => rep ((F.result sort g).map Int.toNat)) = rep ns := by
        have hn2 : ns = (graphemes (ints (σ s))).flatMap (fun g => (F.result sort g).map Int.toNat) := by
          have := congrArg (List.map Int.toNat) htext
          rw [Form.text, List.map_flatMap] at this
          rw [this]; simp [ints, List.map_map, Function.comp_def]
        rw [hn2]
        generalize graphemes (ints (σ s)) = l
        induction l with
        | nil => simp [R.nil]
        | cons a l ih => simp only [List.flatMap_cons, R.append, ih]
      rw [htext, hrep, List.length_map, List.length_map, h0, hl] at this
      simp only [Encoding.step, if_neg hne, this, Res.bind_ok, Res.pure_eq]
      rw [comp_upd, R.append]
  | read s =>
    obtain ⟨rfl, rfl⟩ := hid
    obtain ⟨pos, h0, hl, _, S, _, _⟩ := R.sim (σ1 s) (hσ s)
    refine ⟨hσ, (σ1 s).length + 1, fun fuel hf => ?_⟩
    have := readRange_eq S 0 (σ1 s).length (Nat.zero_le _) (by simp) fuel (by omega)
    rw [h0, hl, List.drop_zero, List.take_of_length_le (by simp)] at this
    simp only [Encoding.step, this, Res.bind_ok, Res.pure_eq]
  | readBack s =>
    obtain ⟨rfl, rfl⟩ := hid
    obtain ⟨pos, h0, hl, _, S, _, _⟩ := R.sim (σ1 s) (hσ s)
    refine ⟨hσ, (σ1 s).length + 1, fun fuel hf => ?_⟩
    have := readBackRange_sim S fuel (σ1 s).length (by simp) (by omega)
    rw [h0, hl, List.take_of_length_le (by simp)] at this
    simp only [Encoding.step, this, Res.bind_ok, Res.pure_eq]
  | readGraphemes s =>
    obtain ⟨rfl, gs, hgs, rfl⟩ := hid
    obtain ⟨gs0, _, hseg, huniq⟩ := graphemes_nat sort (σ1 s)
    obtain rfl := huniq _ hgs
    obtain ⟨pos, h0, hl, _, S, hend, _⟩ := R.sim (σ1 s) (hσ s)
    have ha' : (σ1 s).length < 2 ^ 31 := ha
    refine ⟨hσ, (σ1 s).length + 1, fun fuel hf => ?_⟩
    have := collect_sim S fuel (by simp; omega) (by simp; omega) 0 (by simpa using hend) (fun a _ => brk_zero a)
    rw [h0, List.length_map, hl] at this
    simp only [Encoding.step, this, Res.bind_ok, Res.pure_eq, hseg]
  | equal s t =>
    obtain ⟨rfl, rfl⟩ := hid
    obtain ⟨pos, h0, hl, _, S, _, _⟩ := R.sim (σ1 s) (hσ s)
    obtain ⟨qos, h0', hl', _, T, _, _⟩ := R.sim (σ1 t) (hσ t)
    refine ⟨hσ, (σ1 s).length + 1, fun fuel hf => ?_⟩
    have := stdEqual_sim S T fuel 0 0 (Nat.zero_le _) (Nat.zero_le _) (by simp; omega)
    rw [List.length_map, List.length_map, h0, h0', hl, hl', List.drop_zero, List.drop_zero] at this
    simp only [Encoding.step, this, Res.bind_ok, Res.pure_eq]
    congr 3
    exact decide_eq_decide.mpr ⟨fun h => ints_injective h, fun h => by rw [h]⟩
  | less s t =>
    obtain ⟨rfl, rfl⟩ := hid
    obtain ⟨pos, h0, hl, _, S, _, _⟩ := R.sim (σ1 s) (hσ s)
    obtain ⟨qos, h0', hl', _, T, _, _⟩ := R.sim (σ1 t) (hσ t)
    refine ⟨hσ, (σ1 s).length + 1, fun fuel hf => ?_⟩
    have := stdLess_sim S T fuel 0 0 (Nat.zero_le _) (Nat.zero_le _) (by simp; omega)
    rw [List.length_map, List.length_map, h0, h0', hl, hl', List.drop_zero, List.drop_zero] at this
    simp only [Encoding.step, this, Res.bind_ok, Res.pure_eq]
    congr 3
    exact decide_eq_decide.mpr (ints_lt _ _)
  | countIf s pred =>
    obtain ⟨rfl, rfl⟩ := hid
    obtain ⟨pos, h0, hl, _, S, _, _⟩ := R.sim (σ1 s) (hσ s)
    have ha' : (σ1 s).length < 2 ^ 31 := ha
    refine ⟨hσ, (σ1 s).length + 1, fun fuel hf => ?_⟩
    have := stdCountIf_sim S pred fuel 0 (Nat.zero_le _) (by simp; omega) 0 (by omega) (by simp; omega)
    rw [List.length_map, h0, hl, List.drop_zero, List.countP_map, Int.zero_add] at this
    simp only [Encoding.step, this, Res.bind_ok, Res.pure_eq]
    rfl

theorem ideal_exists (sort : SortFn) (σ : Nat → List Nat) (op : Op) (ha : (libraryData sort).Allowed σ op) :
    ∃ σ1 o, (libraryData sort).Ideal σ op σ1 o := by
  cases op with
  | appendCps d v => obtain ⟨cs, hv, _⟩ := ha; exact ⟨_, _, ⟨cs, hv, rfl⟩, rfl⟩
  | appendGraphemes d s i j => obtain ⟨gs, hgs, _⟩ := ha; exact ⟨_, _, ⟨gs, hgs, rfl⟩, rfl⟩
  | normalize F d s =>
    obtain ⟨_, _, henc⟩ := ha
    obtain ⟨gs, hgs, _, _⟩ := graphemes_nat sort (σ s)
    refine ⟨_, _, gs, (gs.flatMap fun g => (libraryData sort).normal F (ints g)).map Int.toNat, hgs, ?_, rfl, rfl⟩
    rw [ints, List.map_map]
    conv => rhs; rw [← List.map_id (List.flatMap _ _)]
    refine List.map_congr_left fun x hx => ?_
    obtain ⟨g, hg, hx⟩ := List.mem_flatMap.mp hx
    obtain ⟨n, rfl, _⟩ := henc gs hgs g hg x hx
    simp
  | readGraphemes s =>
    obtain ⟨gs, hgs, _, _⟩ := graphemes_nat sort (σ s)
    exact ⟨_, _, rfl, gs, hgs, rfl⟩
  | write s i c => obtain ⟨n, _, hc, _⟩ := ha; exact ⟨_, _, ⟨n, hc, rfl⟩, rfl⟩
  | transform s f =>
    refine ⟨_, _, ⟨((ints (σ s)).map f).map Int.toNat, ?_, rfl⟩, rfl⟩
    simp only [ints, List.map_map]
    refine List.map_congr_left fun c hc => ?_
    obtain ⟨n, hn, _⟩ := ha c hc
    show ((f (Int.ofNat c)).toNat : Int) = f (Int.ofNat c)
    rw [show f (Int.ofNat c) = n from hn]; rfl
  | copy | clear | appendRange | read | readBack | equal | less | countIf => exact ⟨_, _, rfl, rfl⟩

theorem run_refines [DecidableEq α] {E : Encoding α} {rep : List Nat → List α} (R : Refines E rep) {sort : SortFn}
    (hs : ConformingSort sort) (ops : List Op) (σ : Nat → List Nat) (hσ : Small σ)
    (ha : (libraryData sort).AllowedRun σ ops) (σ' : Nat → List Nat) (os : List Obs)
    (hid : (libraryData sort).IdealRun σ ops σ' os) :
    ∃ N, ∀ fuel, N ≤ fuel → E.run sort fuel (fun k => rep (σ k)) ops = .ok (fun k => rep (σ' k), os) := by
  induction hid with
  | nil σ => exact ⟨0, fun _ _ => rfl⟩
  | cons σ σ1 σ2 op ops o os h1 h2 ih =>
    obtain ⟨ha1, ha2⟩ := ha
    obtain ⟨hs1, N, hN⟩ := step_refines R hs σ hσ op ha1 σ1 o h1
    obtain ⟨M, hM⟩ := ih hs1 (ha2 σ1 o h1)
    refine ⟨max N M, fun fuel hf => ?_⟩
    simp only [Encoding.run, hN fuel (by omega), Res.bind_ok, hM fuel (by omega), Res.pure_eq]

theorem idealRun_exists (sort : SortFn) (ops : List Op) (σ : Nat → List Nat)
    (ha : (libraryData sort).AllowedRun σ ops) : ∃ σ' os, (libraryData sort).IdealRun σ ops σ' os := by
  induction ops generalizing σ with
  | nil => exact ⟨σ, [], .nil σ⟩
  | cons op ops ih =>
    obtain ⟨σ1, o, h1⟩ := ideal_exists sort σ op ha.1
    obtain ⟨σ2, os, h2⟩ := ih σ1 (ha.2 σ1 o h1)
    exact ⟨σ2, o :: os, .cons σ σ1 σ2 op ops o os h1 h2⟩

/-- C56. Any program - any number of strings with any contents below 2^31, any number of copies, appends,
normalizations, readings and comparisons in any order, each allowed where it stands - terminates without
undefined behaviour on UTF-8 strings and on utf32ne strings, for every conforming sort; both print the same
things, namely what the program prints on plain sequences of codepoints; and afterwards every UTF-8
string is the UTF-8 encoding of the corresponding sequence. -/
theorem C56_programs (sort : SortFn) (hs : ConformingSort sort) (ops : List Op) (σ : Nat → List Nat)
    (hσ : ∀ k, ∀ c ∈ σ k, c < 2 ^ 31) (ha : (libraryData sort).AllowedRun σ ops) :
    ∃ σ' os N, (libraryData sort).IdealRun σ ops σ' os ∧ ∀ fuel, N ≤ fuel →
      enc8.run sort fuel (fun k => encodeText (σ k)) ops = .ok (fun k => encodeText (σ' k), os) ∧
      enc32.run sort fuel (fun k => ints (σ k)) ops = .ok (fun k => ints (σ' k), os) := by
  obtain ⟨σ', os, hid⟩ := idealRun_exists sort ops σ ha
  obtain ⟨N, hN⟩ := run_refines refines8 hs ops σ hσ ha σ' os hid
  obtain ⟨M, hM⟩ := run_refines refines32 hs ops σ hσ ha σ' os hid
  exact ⟨σ', os, max N M, hid, fun fuel hf => ⟨hN fuel (by omega), hM fuel (by omega)⟩⟩

/-- The ideal run is a function of the program and the initial strings. -/
theorem ideal_unique (sort : SortFn) (σ : Nat → List Nat) (op : Op) {σ1 σ2 : Nat → List Nat} {o1 o2 : Obs}
    (h1 : (libraryData sort).Ideal σ op σ1 o1) (h2 : (libraryData sort).Ideal σ op σ2 o2) : σ1 = σ2 ∧ o1 = o2 := by
  cases op with
  | appendCps d v =>
    obtain ⟨⟨cs, hv, rfl⟩, rfl⟩ := h1
    obtain ⟨⟨cs', hv', rfl⟩, rfl⟩ := h2
    obtain rfl := ints_injective (hv.symm.trans hv')
    exact ⟨rfl, rfl⟩
  | appendGraphemes d s i j =>
    obtain ⟨⟨gs, hgs, rfl⟩, rfl⟩ := h1
    obtain ⟨⟨gs', hgs', rfl⟩, rfl⟩ := h2
    obtain ⟨_, _, _, hu⟩ := graphemes_nat sort (σ s)
    obtain rfl := (hu _ hgs).trans (hu _ hgs').symm
    exact ⟨rfl, rfl⟩
  | normalize F d s =>
    obtain ⟨gs, ns, hgs, hns, rfl, rfl⟩ := h1
    obtain ⟨gs', ns', hgs', hns', rfl, rfl⟩ := h2
    obtain ⟨_, _, _, hu⟩ := graphemes_nat sort (σ s)
    obtain rfl := (hu _ hgs).trans (hu _ hgs').symm
    obtain rfl := ints_injective (hns.trans hns'.symm)
    exact ⟨rfl, rfl⟩
  | readGraphemes s =>
    obtain ⟨rfl, gs, hgs, rfl⟩ := h1
    obtain ⟨rfl, gs', hgs', rfl⟩ := h2
    obtain ⟨_, _, _, hu⟩ := graphemes_nat sort (σ2 s)
    obtain rfl := (hu _ hgs).trans (hu _ hgs').symm
    exact ⟨rfl, rfl⟩
  | write s i c =>
    obtain ⟨⟨n, hc, rfl⟩, rfl⟩ := h1
    obtain ⟨⟨n', hc', rfl⟩, rfl⟩ := h2
    obtain rfl : n = n' := by omega
    exact ⟨rfl, rfl⟩
  | transform s f =>
    obtain ⟨⟨cs, hc, rfl⟩, rfl⟩ := h1
    obtain ⟨⟨cs', hc', rfl⟩, rfl⟩ := h2
    obtain rfl := ints_injective (hc.trans hc'.symm)
    exact ⟨rfl, rfl⟩
  | copy | clear | appendRange | read | readBack | equal | less | countIf =>
    obtain ⟨rfl, rfl⟩ := h1
    obtain ⟨rfl, rfl⟩ := h2
    exact ⟨rfl, rfl⟩

/-- C56, the other direction: whatever the two machines print and store after an allowed program is what the
specification says - there is no second ideal run they could be following. -/
theorem C56_deterministic (sort : SortFn) (ops : List Op) (σ σ1 σ2 : Nat → List Nat) (os1 os2 : List Obs)
    (h1 : (libraryData sort).IdealRun σ ops σ1 os1) (h2 : (libraryData sort).IdealRun σ ops σ2 os2) :
    σ1 = σ2 ∧ os1 = os2 := by
  induction h1 generalizing σ2 os2 with
  | nil σ => cases h2; exact ⟨rfl, rfl⟩
  | cons σ τ τ' op ops o os h _ ih =>
    cases h2 with
    | cons _ τ2 _ _ _ o2 os2 h' h'' =>
      obtain ⟨rfl, rfl⟩ := ideal_unique sort σ op h h'
      obtain ⟨rfl, rfl⟩ := ih _ _ h''
      exact ⟨rfl, rfl⟩

/-- Instance: an append, then a read: what is printed is determined. -/
example (σ' : Nat → List Nat) (os : List Obs)
    (h : (libraryData insSort).IdealRun (fun _ => [0x65]) [.appendCps 0 [0x301], .read 0] σ' os) :
    os = [.none, .codepoints [0x65, 0x301]] :=
  (C56_deterministic insSort _ (fun _ => [0x65]) σ' _ os [.none, .codepoints [0x65, 0x301]] h
    (.cons _ _ _ _ _ _ _ ⟨⟨[0x301], rfl, rfl⟩, rfl⟩ (.cons _ _ _ _ _ _ _ ⟨rfl, rfl⟩ (.nil _)))).2

instance (c : Nat) : Decidable (Encodable c) := by unfold Encodable; infer_instance

/-- The graphemes of a sequence of codepoints, computed. -/
def graphemesOf (cs : List Nat) : List (List Nat) :=
  (segments isGraphemeBoundary (ints cs)).map (·.map Int.toNat)

/-- The normalization of a sequence of codepoints, computed. -/
def normalOf (sort : SortFn) (F : Form) (cs : List Nat) : List Int :=
  (graphemesOf cs).flatMap fun g => (libraryData sort).normal F (ints g)

/-- `Ideal` as a function. -/
def idealF (sort : SortFn) (σ : Nat → List Nat) : Op → (Nat → List Nat) × Obs
  | .copy d s => (put σ d (σ s), .none)
  | .clear d => (put σ d [], .none)
  | .appendRange d s i j => (put σ d (σ d ++ ((σ s).take j).drop i), .none)
  | .appendCps d v => (put σ d (σ d ++ v.map Int.toNat), .none)
  | .appendGraphemes d s i j => (put σ d (σ d ++ (((graphemesOf (σ s)).take j).drop i).flatten), .none)
  | .normalize F d s => (put σ d (σ d ++ (normalOf sort F (σ s)).map Int.toNat), .number (normalOf sort F (σ s)).length)
  | .write s i c => (put σ s ((σ s).set i c.toNat), .none)
  | .transform s f => (put σ s (((ints (σ s)).map f).map Int.toNat), .none)
  | .read s => (σ, .codepoints (ints (σ s)))
  | .readBack s => (σ, .codepoints (ints (σ s)).reverse)
  | .readGraphemes s => (σ, .graphemes ((graphemesOf (σ s)).map ints))
  | .equal s t => (σ, .bool (decide (σ s = σ t)))
  | .less s t => (σ, .bool (decide (σ s < σ t)))
  | .countIf s pred => (σ, .number ((σ s).countP fun c => pred (Int.ofNat c)))

/-- `Allowed` as a computation. -/
def allowedB (sort : SortFn) (σ : Nat → List Nat) : Op → Bool
  | .copy _ _ | .clear _ | .read _ | .readBack _ | .equal _ _ | .less _ _ => true
  | .appendRange _ s i j => decide (i ≤ j) && decide (j ≤ (σ s).length)
  | .appendCps _ v => v.all fun x => decide (0 ≤ x) && decide (Encodable x.toNat)
  | .appendGraphemes _ s i j => decide (i ≤ j) && decide (j ≤ (graphemesOf (σ s)).length) &&
      (((graphemesOf (σ s)).take j).drop i).all fun g => g.all fun c => decide (c < 0x80)
  | .normalize F d s => decide (d ≠ s) && decide ((decompose F.map (ints (σ s))).length < 2 ^ 31) &&
      (normalOf sort F (σ s)).all fun x => decide (0 ≤ x) && decide (Encodable x.toNat)
  | .write s i c => decide (0 ≤ c) && decide (Encodable c.toNat) &&
      (match (σ s)[i]? with
        | some old => decide ((encode c.toNat).length = (encode old).length)
        | none => false)
  | .transform s f => (σ s).all fun c => decide (0 ≤ f c) && decide (Encodable (f c).toNat) &&
      decide ((encode (f c).toNat).length = (encode c).length)
  | .readGraphemes s => decide ((σ s).length < 2 ^ 31)
  | .countIf s _ => decide ((σ s).length < 2 ^ 31)

/-- `AllowedRun` as a computation. -/
def allowedRunB (sort : SortFn) : (Nat → List Nat) → List Op → Bool
  | _, [] => true
  | σ, op :: ops => allowedB sort σ op && allowedRunB sort (idealF sort σ op).1 ops

theorem graphemesOf_spec (sort : SortFn) (cs : List Nat) (gs : List (List Nat)) :
    (libraryData sort).Graphemes cs gs ↔ gs = graphemesOf cs := by
  obtain ⟨gs0, h1, h2, h3⟩ := graphemes_nat sort cs
  have : gs0 = graphemesOf cs := by
    rw [graphemesOf, ← h2, List.map_map]
    conv => lhs; rw [← List.map_id gs0]
    refine List.map_congr_left fun g _ => ?_
    simp [ints, List.map_map, Function.comp_def]
  rw [← this]
  exact ⟨h3 gs, fun h => h ▸ h1⟩

theorem ints_toNat {v : List Int} (h : ∀ x ∈ v, ∃ n : Nat, x = n ∧ Encodable n) : ints (v.map Int.toNat) = v := by
  rw [ints, List.map_map]
  conv => rhs; rw [← List.map_id v]
  refine List.map_congr_left fun x hx => ?_
  obtain ⟨n, rfl, _⟩ := h x hx
  simp

theorem all_encodable_iff (v : List Int) : (v.all fun x => decide (0 ≤ x) && decide (Encodable x.toNat)) = true ↔
    ∀ x ∈ v, ∃ n : Nat, x = n ∧ Encodable n := by
  rw [List.all_eq_true]
  refine forall_congr' fun x => forall_congr' fun _ => ?_
  simp only [Bool.and_eq_true, decide_eq_true_eq]
  constructor
  · rintro ⟨h0, he⟩; exact ⟨x.toNat, by omega, he⟩
  · rintro ⟨n, rfl, he⟩; exact ⟨by omega, by simpa using he⟩

theorem allowedB_iff (sort : SortFn) (σ : Nat → List Nat) (op : Op) :
    allowedB sort σ op = true ↔ (libraryData sort).Allowed σ op := by
  cases op with
  | copy | clear | read | readBack | equal | less => simp [allowedB, Ucd.Allowed]
  | appendRange d s i j => simp [allowedB, Ucd.Allowed]
  | readGraphemes s => simp [allowedB, Ucd.Allowed]
  | countIf s pred => simp [allowedB, Ucd.Allowed]
  | write s i c =>
    rw [allowedB, Ucd.Allowed]
    simp only [Bool.and_eq_true, decide_eq_true_eq]
    constructor
    · rintro ⟨⟨h1, h2⟩, h3⟩
      cases ho : (σ s)[i]? with
      | none => rw [ho] at h3; simp at h3
      | some old =>
        rw [ho] at h3
        exact ⟨c.toNat, old, by omega, rfl, h2, by simpa using h3⟩
    · rintro ⟨n, old, rfl, ho, h2, h3⟩
      rw [ho]
      exact ⟨⟨by omega, by simpa using h2⟩, by simpa using h3⟩
  | transform s f =>
    rw [allowedB, Ucd.Allowed]
    simp only [List.all_eq_true, Bool.and_eq_true, decide_eq_true_eq]
    refine forall_congr' fun c => forall_congr' fun _ => ?_
    constructor
    · rintro ⟨⟨h1, h2⟩, h3⟩; exact ⟨_, by omega, h2, h3⟩
    · rintro ⟨n, hn, h2, h3⟩; rw [hn]; exact ⟨⟨by omega, by simpa using h2⟩, by simpa using h3⟩
  | appendCps d v =>
    rw [allowedB, all_encodable_iff, Ucd.Allowed]
    constructor
    · intro h
      refine ⟨v.map Int.toNat, (ints_toNat h).symm, fun c hc => ?_⟩
      obtain ⟨x, hx, rfl⟩ := List.mem_map.mp hc
      obtain ⟨n, rfl, hn⟩ := h x hx
      simpa using hn
    · rintro ⟨cs, rfl, h⟩ x hx
      obtain ⟨c, hc, rfl⟩ := List.mem_map.mp hx
      exact ⟨c, rfl, h c hc⟩
  | appendGraphemes d s i j =>
    simp only [allowedB, Ucd.Allowed, graphemesOf_spec, exists_eq_left, Bool.and_eq_true, decide_eq_true_eq,
      List.all_eq_true, and_assoc]
  | normalize F d s =>
    simp only [allowedB, Ucd.Allowed, graphemesOf_spec, forall_eq, Bool.and_eq_true, decide_eq_true_eq,
      and_assoc, all_encodable_iff]
    refine and_congr_right fun _ => and_congr ?_ ?_
    · cases F <;> rfl
    · rw [normalOf]
      constructor
      · intro h g hg x hx; exact h x (List.mem_flatMap.mpr ⟨g, hg, hx⟩)
      · intro h x hx
        obtain ⟨g, hg, hx⟩ := List.mem_flatMap.mp hx
        exact h g hg x hx

theorem idealF_spec (sort : SortFn) (σ : Nat → List Nat) (op : Op) (ha : (libraryData sort).Allowed σ op) :
    (libraryData sort).Ideal σ op (idealF sort σ op).1 (idealF sort σ op).2 := by
  cases op with
  | appendCps d v =>
    obtain ⟨cs, rfl, _⟩ := ha
    refine ⟨⟨cs, rfl, ?_⟩, rfl⟩
    simp [idealF, ints, List.map_map, Function.comp_def]
  | appendGraphemes d s i j => exact ⟨⟨_, (graphemesOf_spec sort _ _).mpr rfl, rfl⟩, rfl⟩
  | normalize F d s =>
    obtain ⟨_, _, henc⟩ := ha
    have henc := henc _ ((graphemesOf_spec sort _ _).mpr rfl)
    refine ⟨_, (normalOf sort F (σ s)).map Int.toNat, (graphemesOf_spec sort _ _).mpr rfl, ?_, rfl, ?_⟩
    · refine ints_toNat fun x hx => ?_
      obtain ⟨g, hg, hx⟩ := List.mem_flatMap.mp hx
      exact henc g hg x hx
    · simp [idealF]
  | readGraphemes s => exact ⟨rfl, _, (graphemesOf_spec sort _ _).mpr rfl, rfl⟩
  | write s i c => obtain ⟨n, _, rfl, _⟩ := ha; exact ⟨⟨n, rfl, rfl⟩, rfl⟩
  | transform s f =>
    refine ⟨⟨_, ?_, rfl⟩, rfl⟩
    simp only [ints, List.map_map]
    refine List.map_congr_left fun c hc => ?_
    obtain ⟨n, hn, _⟩ := ha c hc
    show ((f (Int.ofNat c)).toNat : Int) = f (Int.ofNat c)
    rw [show f (Int.ofNat c) = n from hn]; rfl
  | copy | clear | appendRange | read | readBack | equal | less | countIf => exact ⟨rfl, rfl⟩

/-- C56: whether a program is allowed can be computed from the program and the initial strings. -/
theorem C56_allowed_checkable (sort : SortFn) (ops : List Op) (σ : Nat → List Nat) :
    allowedRunB sort σ ops = true ↔ (libraryData sort).AllowedRun σ ops := by
  induction ops generalizing σ with
  | nil => simp [allowedRunB, Ucd.AllowedRun]
  | cons op ops ih =>
    rw [allowedRunB, Bool.and_eq_true, allowedB_iff, ih, Ucd.AllowedRun]
    refine and_congr_right fun ha => ?_
    have hI := idealF_spec sort σ op ha
    constructor
    · intro h σ1 o h1
      obtain ⟨rfl, _⟩ := ideal_unique sort σ op h1 hI
      exact h
    · intro h; exact h _ _ hI

/-- Non-vacuity: a program with every kind of operation, run by both machines: it builds "e\u0301€", takes its
NFC into another string, appends a range and a grapheme, reads everything back. -/
def sampleProgram : List Op :=
  [.appendCps 0 [0x65, 0x301, 0x20AC], .normalize .C 1 0, .read 1, .appendRange 1 0 1 3, .readBack 1,
   .readGraphemes 1, .appendGraphemes 1 2 0 1, .copy 3 1, .equal 1 3, .clear 3, .less 3 1,
   .countIf 1 (fun c => 127 < c), .normalize .D 3 1, .read 3,
   .appendRange 3 3 0 2, .write 3 0 0x66, .transform 3 (fun c => if 0x61 ≤ c ∧ c ≤ 0x7A then c - 32 else c), .read 3]

/-- The initial strings of the sample. -/
def sampleStore : Nat → List Nat := fun k => if k = 2 then [0x61, 0x62] else []

/-- What both print. -/
def sampleOutput : List Obs :=
  [.none, .number 2, .codepoints [0xE9, 0x20AC], .none, .codepoints [0x20AC, 0x301, 0x20AC, 0xE9],
   .graphemes [[0xE9], [0x20AC, 0x301], [0x20AC]], .none, .none, .bool true, .none, .bool true, .number 4,
   .number 6, .codepoints [0x65, 0x301, 0x20AC, 0x301, 0x20AC, 0x61], .none, .none, .none,
   .codepoints [0x46, 0x301, 0x20AC, 0x301, 0x20AC, 0x41, 0x45, 0x301]]

/-- The sample is allowed. -/
example : (libraryData insSort).AllowedRun sampleStore sampleProgram :=
  (C56_allowed_checkable insSort sampleProgram sampleStore).mp (by decide +kernel)

example : (match enc8.run insSort 20 (fun k => encodeText (sampleStore k)) sampleProgram with
    | .ok (_, os) => os | _ => []) = sampleOutput ∧
    (match enc32.run insSort 20 (fun k => ints (sampleStore k)) sampleProgram with
    | .ok (_, os) => os | _ => []) = sampleOutput := by decide +kernel

/-- C56: the restrictions are needed. Appending U+0915, copying "é" by graphemes, writing
'A' over "é" and appending U+0000 print different things on the two kinds of strings (the last is undefined in UTF-8);
writing "é" over the last, one-octet, codepoint of a string overwrites its terminator, which is undefined. -/
theorem C56_restrictions_needed :
    let prints8 := fun ops => (match enc8.run insSort 20 (fun k => encodeText (if k = 2 then [0xE9] else [])) ops with
      | .ok (_, os) => some os | _ => none)
    let prints32 := fun ops => (match enc32.run insSort 20 (fun k => ints (if k = 2 then [0xE9] else [])) ops with
      | .ok (_, os) => some os | _ => none)
    (prints8 [.appendCps 0 [0x915], .read 0] ≠ prints32 [.appendCps 0 [0x915], .read 0]) ∧
    (prints8 [.appendGraphemes 0 2 0 1, .appendCps 0 [0x61], .read 0] ≠
      prints32 [.appendGraphemes 0 2 0 1, .appendCps 0 [0x61], .read 0]) ∧
    (prints8 [.write 2 0 0x41, .read 2] ≠ prints32 [.write 2 0 0x41, .read 2]) ∧
    prints8 [.appendCps 0 [0], .read 0] = none ∧
    prints32 [.appendCps 0 [0], .read 0] = some [.none, .codepoints [0]] ∧
    (match enc8.run insSort 20 (fun k => encodeText (if k = 2 then [0x61] else [])) [.write 2 0 0xE9] with
      | .ub => true | _ => false) = true := by decide +kernel

/-- `C56_programs` applied to the sample program. -/
example := C56_programs insSort insSort_stable.1 sampleProgram sampleStore (by
    intro k c hc
    simp only [sampleStore] at hc
    split at hc <;> simp at hc
    rcases hc with rfl | rfl <;> decide)
  ((C56_allowed_checkable insSort sampleProgram sampleStore).mp (by decide +kernel))

end U5e
