import Verif.Spec.HeldViews
import Verif.Proofs.Cursors
import Verif.Properties.Views
import Verif.Proofs.Walk
/-!
# C78: programs that hold views and iterators, over both encodings
-/
namespace U5e
open Spec

/-- Where codepoint number `i` starts in memory. -/
def place (k : Spec.Kind) (cs : List Nat) (i : Nat) : Nat := (Spec.stored k (cs.take i)).size

theorem place_sim (k : Spec.Kind) (cs : List Nat) (h : ∀ c ∈ cs, c < 2 ^ 31) : Sim (Spec.stored k cs).iter (place k cs) (ints cs) := by
  obtain ⟨pos, hp, S, _⟩ := stored_sim k cs h
  have e : ∀ i, i ≤ cs.length → place k cs i = pos i := fun i hi => (hp i hi).symm
  refine ⟨fun i c hc => ?_, fun i hi => ?_, fun i hi => ?_, fun i j hi hj => ?_⟩
  · have : i < cs.length := by simpa using (List.getElem?_eq_some_iff.mp hc).1
    rw [e i (by omega)]; exact S.deref i c hc
  · have hi' : i < cs.length := by simpa using hi
    rw [e i (by omega), e (i + 1) (by omega)]; exact S.inc i hi
  · have hi' : i < cs.length := by simpa using hi
    rw [e i (by omega), e (i + 1) (by omega)]; exact S.dec i hi
  · rw [e i (by simpa using hi), e j (by simpa using hj)]; exact S.eq i j hi hj

theorem place_zero (k : Spec.Kind) (cs : List Nat) : place k cs 0 = 0 := by rw [place, List.take_zero, stored_nil_size]

theorem place_length (k : Spec.Kind) (cs : List Nat) : place k cs cs.length = (Spec.stored k cs).size := by
  rw [place, List.take_length]

theorem place_mono (k : Spec.Kind) (cs : List Nat) {i j : Nat} (h : i ≤ j) : place k cs i ≤ place k cs j := size_mono k cs h

theorem encodeText_length (cs : List Nat) : (encodeText cs).length = (cs.map fun c => (encode c).length).sum := by
  simp [encodeText, List.length_flatMap]

/-- Overwriting codepoints by codepoints of the same sizes does not move anything. -/
theorem place_congr {k : Spec.Kind} {cs ds : List Nat} (hlen : cs.length = ds.length)
    (h : k = .utf8 → ∀ (i a b : Nat), cs[i]? = some a → ds[i]? = some b → (encode a).length = (encode b).length) (i : Nat) :
    place k cs i = place k ds i := by
  cases k with
  | utf32 => simp [place, Spec.stored, Text.size, hlen]
  | utf8 =>
    simp only [place, Spec.stored, Text.size, encodeText_length, List.map_take]
    congr 2
    apply List.ext_getElem?
    intro n
    rw [List.getElem?_map, List.getElem?_map]
    cases hc : cs[n]? with
    | none =>
      have : ds[n]? = none := by rw [List.getElem?_eq_none_iff] at hc ⊢; omega
      rw [this]
    | some a =>
      have hn := (List.getElem?_eq_some_iff.mp hc).1
      have hd : ds[n]? = some ds[n] := List.getElem?_eq_getElem (by omega)
      rw [hd]; simp [h rfl n a ds[n] hc hd]

/-- Position `p` lies in codepoint number `i`, or `i` is the end and `p` the end of the string. -/
def Within (k : Spec.Kind) (cs : List Nat) (i p : Nat) : Prop :=
  (i = cs.length ∧ p = place k cs i) ∨ (i < cs.length ∧ place k cs i ≤ p ∧ p < place k cs (i + 1))

theorem Within.le {k : Spec.Kind} {cs : List Nat} {i p : Nat} (h : Within k cs i p) : i ≤ cs.length := by
  rcases h with ⟨h, _⟩ | ⟨h, _⟩ <;> omega

theorem within8 {cs : List Nat} {i p : Nat} (h : Within .utf8 cs i p) : U5e.Inside encodeText cs i p := h

theorem within32 {cs : List Nat} {i p : Nat} (h : Within .utf32 cs i p) : U5e.Inside (fun cs => ints cs) cs i p := h

theorem within_place (k : Spec.Kind) {cs : List Nat} (h : ∀ c ∈ cs, c < 2 ^ 31) {i : Nat} (hi : i ≤ cs.length) :
    Within k cs i (place k cs i) := by
  rcases Nat.lt_or_eq_of_le hi with hl | he
  · refine .inr ⟨hl, Nat.le_refl _, ?_⟩
    have hc : cs[i]? = some cs[i] := List.getElem?_eq_getElem hl
    cases k with
    | utf8 =>
      have := refinesMid8.pos cs[i] (h _ (List.getElem_mem hl))
      simp only [place, take_succ_of_getElem? hc, Spec.stored, Text.size, refines8.append, List.length_append]
      omega
    | utf32 =>
      simp [place, Spec.stored, Text.size]
      omega
  · exact .inl ⟨he, rfl⟩

theorem within_deref (k : Spec.Kind) {cs : List Nat} (h : ∀ c ∈ cs, c < 2 ^ 31) {i p c : Nat} (hc : cs[i]? = some c)
    (hp : Within k cs i p) : (Spec.stored k cs).iter.deref p = .ok (Int.ofNat c, place k cs i) := by
  cases k with
  | utf8 => exact refinesMid8.deref cs h i p c hc (within8 hp)
  | utf32 => exact refinesMid32.deref cs h i p c hc (within32 hp)

theorem within_inc (k : Spec.Kind) {cs : List Nat} (h : ∀ c ∈ cs, c < 2 ^ 31) {i p : Nat} (hi : i < cs.length)
    (hp : Within k cs i p) : (Spec.stored k cs).iter.inc p = .ok (place k cs (i + 1)) := by
  cases k with
  | utf8 => exact refinesMid8.inc cs h i p hi (within8 hp)
  | utf32 => exact refinesMid32.inc cs h i p hi (within32 hp)

theorem within_dec (k : Spec.Kind) {cs : List Nat} (h : ∀ c ∈ cs, c < 2 ^ 31) {i p : Nat} (hi : 0 < i)
    (hp : Within k cs i p) : (Spec.stored k cs).iter.dec p = .ok (place k cs (i - 1)) := by
  obtain ⟨j, rfl⟩ : ∃ j, i = j + 1 := ⟨i - 1, by omega⟩
  cases k with
  | utf8 => exact refinesMid8.dec cs h j p (within8 hp)
  | utf32 => exact refinesMid32.dec cs h j p (within32 hp)

theorem within_eq (k : Spec.Kind) {cs : List Nat} (h : ∀ c ∈ cs, c < 2 ^ 31) {i j p q : Nat}
    (hp : Within k cs i p) (hq : Within k cs j q) : (Spec.stored k cs).iter.eq p q = .ok (decide (i = j)) := by
  cases k with
  | utf8 => exact refinesMid8.eq cs h i j p q (within8 hp) (within8 hq)
  | utf32 => exact refinesMid32.eq cs h i j p q (within32 hp) (within32 hq)

/-- Assigning through an iterator at the start of a codepoint leaves it somewhere in that codepoint. -/
theorem within_assign (k : Spec.Kind) {cs : List Nat} (h : ∀ c ∈ cs, c < 2 ^ 31) {i old n : Nat} (hc : cs[i]? = some old)
    (hn : k.Holds n) (hl : k = .utf8 → (encode n).length = (encode old).length) :
    ∃ q, Within k (cs.set i n) i q ∧ (Spec.stored k cs).edit (fun E x => do
      let (x1, q) ← E.assign (x ++ [E.nul]) (place k cs i) n
      pure (← E.stored x1, q)) = .ok (Spec.stored k (cs.set i n), q) := by
  have hi := (List.getElem?_eq_some_iff.mp hc).1
  have hset : cs.set i n = cs.take i ++ n :: cs.drop (i + 1) := List.set_eq_take_append_cons_drop.trans (by simp [hi])
  have hget : (cs.set i n)[i]? = some n := by simp [hi]
  have htake : (cs.set i n).take i = cs.take i := List.take_set_of_le (Nat.le_refl _)
  cases k with
  | utf8 =>
    obtain ⟨q, hq, q1, q2⟩ := refinesMid8.assign _ _ old n (by rw [← split_at hc]; exact h) hn (hl rfl)
    rw [← split_at hc, ← hset] at hq
    refine ⟨q, .inr ⟨by simpa using hi, ?_, ?_⟩, ?_⟩
    · rw [place, htake]; exact q1
    · rw [place, take_succ_of_getElem? hget, htake]; exact q2
    · simp only [Spec.stored, Text.edit, place, Text.size, hq, stored_nul, Res.bind_ok, Res.pure_eq]
  | utf32 =>
    refine ⟨i, .inr ⟨by simpa using hi, by simp [place, Spec.stored, Text.size]; omega,
      by simp [place, Spec.stored, Text.size]; omega⟩, ?_⟩
    have hq : enc32.assign (ints cs ++ [enc32.nul]) i n = .ok (ints (cs.set i n) ++ [enc32.nul], i) := by
      show assign32 _ _ _ = _
      rw [assign32, if_pos (by simp; omega)]
      rw [List.set_append_left _ _ (by simpa using hi), ints, ints, List.map_set]
      rfl
    have hpl : place .utf32 cs i = i := by simp [place, Spec.stored, Text.size]; omega
    simp only [Spec.stored, Text.edit, hpl, hq, stored_nul, Res.bind_ok, Res.pure_eq]

/-- An iterator that has not been written through, or only over one octet, is at the start of its codepoint. -/
theorem within_start {k : Spec.Kind} {cs : List Nat} {i p old : Nat} {b : Bool}
    (hc : cs[i]? = some old) (hp : Within k cs i p) (hb : b = false → p = place k cs i)
    (ho : k = .utf8 → b = true → ∀ o, cs[i]? = some o → (encode o).length = 1) : p = place k cs i := by
  cases b with
  | false => exact hb rfl
  | true =>
    have hi := (List.getElem?_eq_some_iff.mp hc).1
    rcases hp with ⟨_, h2⟩ | ⟨_, h1, h2⟩
    · exact h2
    · cases k with
      | utf8 =>
        have := ho rfl rfl old hc
        simp only [place, take_succ_of_getElem? hc, Spec.stored, Text.size, refines8.append, List.length_append] at h1 h2 ⊢
        have e : (encodeText [old]).length = 1 := by simpa [encodeText] using this
        omega
      | utf32 =>
        simp [place, Spec.stored, Text.size] at h1 h2 ⊢
        omega

/-- The world of the specification and the machine belong together. -/
structure HeldRel (τ : Nat → Spec.Kind) (w : HeldWorld) (M : HeldMachine) : Prop where
  strings : M.strings = memory τ w.strings
  small : Small w.strings
  view : ∀ v x, w.views v = some x → x.first ≤ x.last ∧ x.last ≤ (w.strings x.string).length ∧
    M.views v = some (x.string, M.gen x.string, place (τ x.string) (w.strings x.string) x.first,
      place (τ x.string) (w.strings x.string) x.last)
  noView : ∀ v, w.views v = none → ∀ s g p q, M.views v = some (s, g, p, q) → g < M.gen s
  it : ∀ i x, w.its i = some x → x.index ≤ (w.strings x.string).length ∧
    M.its i = some (x.string, M.gen x.string, place (τ x.string) (w.strings x.string) x.index)
  noIt : ∀ i, w.its i = none → ∀ s g p, M.its i = some (s, g, p) → g < M.gen s
  git : ∀ g x, w.gits g = some x → (x.start ≤ x.first ∧ x.first ≤ x.last ∧ x.last ≤ x.stop ∧
      x.stop ≤ (w.strings x.string).length ∧ (x.first = x.last → x.first = x.stop)) ∧
    M.gits g = some (x.string, M.gen x.string, ⟨place (τ x.string) (w.strings x.string) x.start,
      place (τ x.string) (w.strings x.string) x.stop, place (τ x.string) (w.strings x.string) x.first,
      place (τ x.string) (w.strings x.string) x.last⟩)
  noGit : ∀ i, w.gits i = none → ∀ s g x, M.gits i = some (s, g, x) → g < M.gen s
  mit : ∀ m x, w.mits m = some x → ∃ p, M.mits m = some (x.string, M.gen x.string, p) ∧
    Within (τ x.string) (w.strings x.string) x.index p ∧
    (x.written = false → p = place (τ x.string) (w.strings x.string) x.index)
  noMit : ∀ i, w.mits i = none → ∀ s g p, M.mits i = some (s, g, p) → g < M.gen s

variable {τ : Nat → Spec.Kind} {w : HeldWorld} {M : HeldMachine}

theorem HeldRel.getView (r : HeldRel τ w M) {v : Nat} {x : Slice} (h : w.views v = some x) :
    M.view v = .ok (x.string, place (τ x.string) (w.strings x.string) x.first,
      place (τ x.string) (w.strings x.string) x.last) := by
  simp [HeldMachine.view, (r.view v x h).2.2]

theorem HeldRel.getIt (r : HeldRel τ w M) {i : Nat} {x : Mark} (h : w.its i = some x) :
    M.it i = .ok (x.string, place (τ x.string) (w.strings x.string) x.index) := by
  simp [HeldMachine.it, (r.it i x h).2]

theorem HeldRel.view_ub (r : HeldRel τ w M) {v : Nat} (h : w.views v = none) : M.view v = .ub := by
  rw [HeldMachine.view]
  cases e : M.views v with
  | none => rfl
  | some x =>
    obtain ⟨s, g, p, q⟩ := x
    have := r.noView v h s g p q e
    simp [Nat.ne_of_lt this]

theorem HeldRel.it_ub (r : HeldRel τ w M) {i : Nat} (h : w.its i = none) : M.it i = .ub := by
  rw [HeldMachine.it]
  cases e : M.its i with
  | none => rfl
  | some x =>
    obtain ⟨s, g, p⟩ := x
    have := r.noIt i h s g p e
    simp [Nat.ne_of_lt this]

theorem HeldRel.getGit (r : HeldRel τ w M) {g : Nat} {x : Sweep} (h : w.gits g = some x) :
    M.git g = .ok (x.string, ⟨place (τ x.string) (w.strings x.string) x.start,
      place (τ x.string) (w.strings x.string) x.stop, place (τ x.string) (w.strings x.string) x.first,
      place (τ x.string) (w.strings x.string) x.last⟩) := by
  simp [HeldMachine.git, (r.git g x h).2]

theorem HeldRel.git_ub (r : HeldRel τ w M) {i : Nat} (h : w.gits i = none) : M.git i = .ub := by
  rw [HeldMachine.git]
  cases e : M.gits i with
  | none => rfl
  | some x =>
    obtain ⟨s, g, p⟩ := x
    have := r.noGit i h s g p e
    simp [Nat.ne_of_lt this]

theorem HeldRel.getMit (r : HeldRel τ w M) {m : Nat} {x : Pen} (h : w.mits m = some x) :
    ∃ p, M.mit m = .ok (x.string, p) ∧ Within (τ x.string) (w.strings x.string) x.index p ∧
      (x.written = false → p = place (τ x.string) (w.strings x.string) x.index) := by
  obtain ⟨p, h1, h2⟩ := r.mit m x h
  exact ⟨p, by simp [HeldMachine.mit, h1], h2⟩

theorem HeldRel.mit_ub (r : HeldRel τ w M) {i : Nat} (h : w.mits i = none) : M.mit i = .ub := by
  rw [HeldMachine.mit]
  cases e : M.mits i with
  | none => rfl
  | some x =>
    obtain ⟨s, g, p⟩ := x
    have := r.noMit i h s g p e
    simp [Nat.ne_of_lt this]

/-- Opening a place gives the memory of the part of the string the specification says. -/
theorem HeldRel.opened (r : HeldRel τ w M) {pl : Place} {src : Src} (hs : w.source pl = some src)
    (hin : Spec.Inside w.strings src) :
    M.opened pl = .ok (src.string, place (τ src.string) (w.strings src.string) src.lo,
      place (τ src.string) (w.strings src.string) (src.hi w.strings)) := by
  have S := fun s => place_sim (τ s) (w.strings s) (r.small s)
  cases pl with
  | whole s =>
    obtain rfl : Src.whole s = src := by simpa [HeldWorld.source] using hs
    simp only [HeldMachine.opened, Src.string, Src.lo, Src.hi, place_zero, place_length, r.strings]
  | view s i j =>
    obtain rfl : Src.view s i j = src := by simpa [HeldWorld.source] using hs
    obtain ⟨h1, h2⟩ := hin
    have hi := stdNext_sim (S s) i 0 (by simp; omega)
    have hj := stdNext_sim (S s) j 0 (by simp; omega)
    rw [place_zero, Nat.zero_add] at hi hj
    simp only [HeldMachine.opened, r.strings, hi, hj, Res.bind_ok, place_mono (τ s) (w.strings s) h1, if_true, Res.pure_eq,
      Src.string, Src.lo, Src.hi]
  | held v =>
    simp only [HeldWorld.source] at hs
    split at hs
    · rename_i x hx
      obtain rfl := Option.some.inj hs
      exact r.getView hx
    · cases hs
  | part v i j =>
    simp only [HeldWorld.source] at hs
    split at hs
    · rename_i x hx
      obtain rfl := Option.some.inj hs
      obtain ⟨h1, h2⟩ := hin
      have hi := stdNext_sim (S x.string) i x.first (by simp; omega)
      have hj := stdNext_sim (S x.string) j x.first (by simp; omega)
      simp only [HeldMachine.opened, r.getView hx, r.strings, hi, hj, Res.bind_ok,
        place_mono (τ x.string) (w.strings x.string) h1, if_true, Res.pure_eq, Src.string, Src.lo, Src.hi]
    · cases hs
  | between i j =>
    simp only [HeldWorld.source] at hs
    split at hs
    · rename_i a b ha hb
      split at hs
      · rename_i e
        obtain rfl := Option.some.inj hs
        obtain ⟨h1, h2⟩ := hin
        simp only [HeldMachine.opened, r.getIt ha, r.getIt hb, Res.bind_ok, ← e,
          place_mono (τ a.string) (w.strings a.string) h1, and_self, if_true, Res.pure_eq, Src.string, Src.lo, Src.hi]
      · cases hs
    · cases hs

theorem HeldRel.opened_eq (r : HeldRel τ w M) {pl : Place} {src : Src} (hs : w.source pl = some src)
    (hin : Spec.Inside w.strings src) : ∃ p q, M.opened pl = .ok (src.string, p, q) ∧
      src.opened M.strings = .ok ((M.strings src.string).iter, p, q) := by
  refine ⟨_, _, r.opened hs hin, ?_⟩
  have S := place_sim (τ src.string) (w.strings src.string) (r.small _)
  rw [r.strings]
  cases src with
  | whole s => simp [Src.opened, Src.string, Src.lo, Src.hi, place_zero, place_length]
  | view s i j =>
    obtain ⟨h1, h2⟩ := hin
    simp only [Src.string] at S
    have hi := stdNext_sim S i 0 (by simp; omega)
    have hj := stdNext_sim S j 0 (by simp; omega)
    rw [place_zero, Nat.zero_add] at hi hj
    simp only [Src.opened, hi, hj, Res.bind_ok, place_mono (τ s) (w.strings s) h1, if_true, Res.pure_eq,
      Src.string, Src.lo, Src.hi]

/-- A statement does to the strings what the statement of Model/Views.lean does that has the sources put in. -/
theorem HeldRel.step_eq (r : HeldRel τ w M) {U : Ucd} {op : HeldOp} {op' : VOp} (h : w.plain op = some op')
    (hp : U.Permitted τ w.strings op') (sort : SortFn) (fuel : Nat) :
    M.step sort fuel op = viewStep sort fuel M.strings op' := by
  cases op with
  | copy d s => obtain rfl := Option.some.inj h; rfl
  | clear d => obtain rfl := Option.some.inj h; rfl
  | appendCps d v => obtain rfl := Option.some.inj h; rfl
  | write s i c => obtain rfl := Option.some.inj h; rfl
  | transform s f => obtain rfl := Option.some.inj h; rfl
  | append d pl =>
    obtain ⟨src, hs, rfl⟩ := Option.map_eq_some_iff.mp h
    obtain ⟨p, q, h1, h2⟩ := r.opened_eq hs hp.2
    simp only [HeldMachine.step, viewStep, h1, h2, Res.bind_ok]
  | convert d pl =>
    obtain ⟨src, hs, rfl⟩ := Option.map_eq_some_iff.mp h
    obtain ⟨p, q, h1, h2⟩ := r.opened_eq hs hp.2.1
    simp only [HeldMachine.step, viewStep, h1, h2, Res.bind_ok]
  | appendGraphemes d pl i j =>
    obtain ⟨src, hs, rfl⟩ := Option.map_eq_some_iff.mp h
    obtain ⟨p, q, h1, h2⟩ := r.opened_eq hs hp.2.1
    simp only [HeldMachine.step, viewStep, h1, h2, Res.bind_ok]
  | normalize F d pl =>
    obtain ⟨src, hs, rfl⟩ := Option.map_eq_some_iff.mp h
    obtain ⟨p, q, h1, h2⟩ := r.opened_eq hs hp.2.1
    simp only [HeldMachine.step, viewStep, h1, h2, Res.bind_ok]
  | read pl =>
    obtain ⟨src, hs, rfl⟩ := Option.map_eq_some_iff.mp h
    obtain ⟨p, q, h1, h2⟩ := r.opened_eq hs hp
    simp only [HeldMachine.step, viewStep, h1, h2, Res.bind_ok]
  | readBack pl =>
    obtain ⟨src, hs, rfl⟩ := Option.map_eq_some_iff.mp h
    obtain ⟨p, q, h1, h2⟩ := r.opened_eq hs hp
    simp only [HeldMachine.step, viewStep, h1, h2, Res.bind_ok]
  | readGraphemes pl =>
    obtain ⟨src, hs, rfl⟩ := Option.map_eq_some_iff.mp h
    obtain ⟨p, q, h1, h2⟩ := r.opened_eq hs hp.1
    simp only [HeldMachine.step, viewStep, h1, h2, Res.bind_ok]
  | countIf pl f =>
    obtain ⟨src, hs, rfl⟩ := Option.map_eq_some_iff.mp h
    obtain ⟨p, q, h1, h2⟩ := r.opened_eq hs hp.1
    simp only [HeldMachine.step, viewStep, h1, h2, Res.bind_ok]
  | equal a b =>
    simp only [HeldWorld.plain] at h
    split at h
    · rename_i x y hx hy
      obtain rfl := Option.some.inj h
      obtain ⟨p, q, h1, h2⟩ := r.opened_eq hx hp.1
      obtain ⟨p', q', h1', h2'⟩ := r.opened_eq hy hp.2
      simp only [HeldMachine.step, viewStep, h1, h2, h1', h2', Res.bind_ok]
    · cases h
  | less a b =>
    simp only [HeldWorld.plain] at h
    split at h
    · rename_i x y hx hy
      obtain rfl := Option.some.inj h
      obtain ⟨p, q, h1, h2⟩ := r.opened_eq hx hp.1
      obtain ⟨p', q', h1', h2'⟩ := r.opened_eq hy hp.2
      simp only [HeldMachine.step, viewStep, h1, h2, h1', h2', Res.bind_ok]
    · cases h

theorem invalidates_held (op : HeldOp) : op.invalidates = storesIn op := by cases op <;> rfl

/-- What a statement does to the other strings, and to the places of codepoints if it overwrites in place. -/
theorem plain_frame {U : Ucd} {op : HeldOp} {op' : VOp} (h : w.plain op = some op')
    (hp : U.Permitted τ w.strings op') {σ : Nat → List Nat} {o : Obs} (hi : U.IdealV w.strings op' σ o) :
    match storesIn op with
    | some d => ∀ s, s ≠ d → σ s = w.strings s
    | none => ∀ s, (σ s).length = (w.strings s).length ∧ ∀ i, place (τ s) (σ s) i = place (τ s) (w.strings s) i := by
  have hput : ∀ (d : Nat) (cs : List Nat) s, s ≠ d → Spec.put w.strings d cs s = w.strings s := by
    intro d cs s hs; simp [Spec.put, hs]
  have two : ∀ {a b : Place} {f : Src → Src → VOp}, (match w.source a, w.source b with
      | some a, some b => some (f a b)
      | _, _ => none) = some op' → ∃ x y, op' = f x y := by
    intro a b f h
    split at h
    · exact ⟨_, _, (Option.some.inj h).symm⟩
    · cases h
  cases op with
  | copy d s => obtain rfl := Option.some.inj h; obtain ⟨rfl, _⟩ := hi; exact hput _ _
  | clear d => obtain rfl := Option.some.inj h; obtain ⟨rfl, _⟩ := hi; exact hput _ _
  | appendCps d v => obtain rfl := Option.some.inj h; obtain ⟨⟨cs, _, rfl⟩, _⟩ := hi; exact hput _ _
  | append d pl => obtain ⟨src, hs, rfl⟩ := Option.map_eq_some_iff.mp h; obtain ⟨rfl, _⟩ := hi; exact hput _ _
  | convert d pl => obtain ⟨src, hs, rfl⟩ := Option.map_eq_some_iff.mp h; obtain ⟨rfl, _⟩ := hi; exact hput _ _
  | appendGraphemes d pl i j =>
    obtain ⟨src, hs, rfl⟩ := Option.map_eq_some_iff.mp h; obtain ⟨⟨gs, _, rfl⟩, _⟩ := hi; exact hput _ _
  | normalize F d pl =>
    obtain ⟨src, hs, rfl⟩ := Option.map_eq_some_iff.mp h; obtain ⟨gs, ns, _, _, rfl, _⟩ := hi; exact hput _ _
  | read pl => obtain ⟨src, hs, rfl⟩ := Option.map_eq_some_iff.mp h; obtain ⟨rfl, _⟩ := hi; exact fun s => ⟨rfl, fun _ => rfl⟩
  | readBack pl => obtain ⟨src, hs, rfl⟩ := Option.map_eq_some_iff.mp h; obtain ⟨rfl, _⟩ := hi; exact fun s => ⟨rfl, fun _ => rfl⟩
  | readGraphemes pl =>
    obtain ⟨src, hs, rfl⟩ := Option.map_eq_some_iff.mp h; obtain ⟨rfl, _⟩ := hi; exact fun s => ⟨rfl, fun _ => rfl⟩
  | countIf pl f => obtain ⟨src, hs, rfl⟩ := Option.map_eq_some_iff.mp h; obtain ⟨rfl, _⟩ := hi; exact fun s => ⟨rfl, fun _ => rfl⟩
  | equal a b => obtain ⟨x, y, rfl⟩ := two h; obtain ⟨rfl, _⟩ := hi; exact fun s => ⟨rfl, fun _ => rfl⟩
  | less a b => obtain ⟨x, y, rfl⟩ := two h; obtain ⟨rfl, _⟩ := hi; exact fun s => ⟨rfl, fun _ => rfl⟩
  | write s i c =>
    obtain rfl := Option.some.inj h
    obtain ⟨⟨n, hn, rfl⟩, _⟩ := hi
    obtain ⟨n', old, hn', hold, _, hsz⟩ := hp
    obtain rfl : n = n' := by have := hn.symm.trans hn'; exact_mod_cast this
    intro t
    by_cases ht : t = s
    · subst ht
      have e : Spec.put w.strings t ((w.strings t).set i n) t = (w.strings t).set i n := by simp [Spec.put]
      rw [e]
      refine ⟨by simp, place_congr (by simp) fun hk m a b ha hb => ?_⟩
      rw [List.getElem?_set] at ha
      split at ha
      · rename_i him
        subst him
        split at ha
        · rw [hold] at hb
          obtain rfl := Option.some.inj hb; obtain rfl := Option.some.inj ha
          exact hsz hk
        · cases ha
      · rw [ha] at hb; rw [Option.some.inj hb]
    · rw [hput _ _ _ ht]; exact ⟨rfl, fun _ => rfl⟩
  | transform s f =>
    obtain rfl := Option.some.inj h
    obtain ⟨⟨cs, hcs, rfl⟩, _⟩ := hi
    intro t
    by_cases ht : t = s
    · subst ht
      have e : Spec.put w.strings t cs t = cs := by simp [Spec.put]
      rw [e]
      have hlen : cs.length = (w.strings t).length := by simpa using congrArg List.length hcs
      refine ⟨hlen, place_congr hlen fun hk m a b ha hb => ?_⟩
      obtain ⟨n, hn, _, hsz⟩ := hp b (List.mem_of_getElem? hb)
      have h1 := congrArg (·[m]?) hcs
      simp only [ints, List.getElem?_map, ha, hb, Option.map_some, Option.some.injEq] at h1
      have : a = n := by
        have h2 : (Int.ofNat a) = (n : Int) := by rw [← hn, h1]; rfl
        exact Int.ofNat.inj h2
      rw [this]; exact hsz hk
    · rw [hput _ _ _ ht]; exact ⟨rfl, fun _ => rfl⟩

theorem HeldRel.setView (r : HeldRel τ w M) (v : Nat) (x : Slice) (h1 : x.first ≤ x.last)
    (h2 : x.last ≤ (w.strings x.string).length) :
    HeldRel τ (w.setView v x) (M.setView v x.string (place (τ x.string) (w.strings x.string) x.first)
      (place (τ x.string) (w.strings x.string) x.last)) := by
  refine ⟨r.strings, r.small, fun u y hy => ?_, fun u hu s g p q hm => ?_, r.it, r.noIt, r.git, r.noGit, r.mit, r.noMit⟩
  · by_cases hu : u = v
    · subst hu
      simp only [HeldWorld.setView, if_true, Option.some.injEq] at hy
      subst hy
      exact ⟨h1, h2, by simp [HeldMachine.setView, HeldWorld.setView, upd]⟩
    · simp only [HeldWorld.setView, hu, if_false] at hy
      have := r.view u y hy
      exact ⟨this.1, this.2.1, by simpa [HeldMachine.setView, HeldWorld.setView, upd, hu] using this.2.2⟩
  · by_cases hv : u = v
    · simp [HeldWorld.setView, hv] at hu
    · simp only [HeldWorld.setView, hv, if_false] at hu
      simp only [HeldMachine.setView, upd, hv, if_false] at hm
      exact r.noView u hu s g p q hm

theorem HeldRel.setIt (r : HeldRel τ w M) (i : Nat) (x : Mark) (h : x.index ≤ (w.strings x.string).length) :
    HeldRel τ (w.setIt i x) (M.setIt i x.string (place (τ x.string) (w.strings x.string) x.index)) := by
  refine ⟨r.strings, r.small, r.view, r.noView, fun u y hy => ?_, fun u hu s g p hm => ?_, r.git, r.noGit, r.mit, r.noMit⟩
  · by_cases hu : u = i
    · subst hu
      simp only [HeldWorld.setIt, if_true, Option.some.injEq] at hy
      subst hy
      exact ⟨h, by simp [HeldMachine.setIt, HeldWorld.setIt, upd]⟩
    · simp only [HeldWorld.setIt, hu, if_false] at hy
      have := r.it u y hy
      exact ⟨this.1, by simpa [HeldMachine.setIt, HeldWorld.setIt, upd, hu] using this.2⟩
  · by_cases hv : u = i
    · simp [HeldWorld.setIt, hv] at hu
    · simp only [HeldWorld.setIt, hv, if_false] at hu
      simp only [HeldMachine.setIt, upd, hv, if_false] at hm
      exact r.noIt u hu s g p hm

theorem HeldRel.setGit (r : HeldRel τ w M) (i : Nat) (x : Sweep) (h : x.start ≤ x.first ∧ x.first ≤ x.last ∧
      x.last ≤ x.stop ∧ x.stop ≤ (w.strings x.string).length ∧ (x.first = x.last → x.first = x.stop)) :
    HeldRel τ (w.setGit i x) (M.setGit i x.string ⟨place (τ x.string) (w.strings x.string) x.start,
      place (τ x.string) (w.strings x.string) x.stop, place (τ x.string) (w.strings x.string) x.first,
      place (τ x.string) (w.strings x.string) x.last⟩) := by
  refine ⟨r.strings, r.small, r.view, r.noView, r.it, r.noIt, fun u y hy => ?_, fun u hu s g p hm => ?_, r.mit, r.noMit⟩
  · by_cases hu : u = i
    · subst hu
      simp only [HeldWorld.setGit, if_true, Option.some.injEq] at hy
      subst hy
      exact ⟨h, by simp [HeldMachine.setGit, HeldWorld.setGit, upd]⟩
    · simp only [HeldWorld.setGit, hu, if_false] at hy
      have := r.git u y hy
      exact ⟨this.1, by simpa [HeldMachine.setGit, HeldWorld.setGit, upd, hu] using this.2⟩
  · by_cases hv : u = i
    · simp [HeldWorld.setGit, hv] at hu
    · simp only [HeldWorld.setGit, hv, if_false] at hu
      simp only [HeldMachine.setGit, upd, hv, if_false] at hm
      exact r.noGit u hu s g p hm

theorem HeldRel.setMit (r : HeldRel τ w M) (i : Nat) (x : Pen) (p : Nat)
    (h : Within (τ x.string) (w.strings x.string) x.index p)
    (h' : x.written = false → p = place (τ x.string) (w.strings x.string) x.index) :
    HeldRel τ (w.setMit i x) (M.setMit i x.string p) := by
  refine ⟨r.strings, r.small, r.view, r.noView, r.it, r.noIt, r.git, r.noGit, fun u y hy => ?_, fun u hu s g p hm => ?_⟩
  · by_cases hu : u = i
    · subst hu
      simp only [HeldWorld.setMit, if_true, Option.some.injEq] at hy
      subst hy
      exact ⟨p, by simp [HeldMachine.setMit, upd], h, h'⟩
    · simp only [HeldWorld.setMit, hu, if_false] at hy
      obtain ⟨q, h1, h2⟩ := r.mit u y hy
      exact ⟨q, by simpa [HeldMachine.setMit, upd, hu] using h1, h2⟩
  · by_cases hv : u = i
    · simp [HeldWorld.setMit, hv] at hu
    · simp only [HeldWorld.setMit, hv, if_false] at hu
      simp only [HeldMachine.setMit, upd, hv, if_false] at hm
      exact r.noMit u hu s g p hm

/-- After a statement that stores into string `d`. -/
theorem HeldRel.store (r : HeldRel τ w M) {σ : Nat → List Nat} (hσ : Small σ) (d : Nat)
    (hf : ∀ s, s ≠ d → σ s = w.strings s) :
    HeldRel τ (w.stored σ (some d)) { M with strings := memory τ σ, gen := upd M.gen d (M.gen d + 1) } := by
  have hgen : ∀ s, s ≠ d → upd M.gen d (M.gen d + 1) s = M.gen s := fun s hs => by simp [upd, hs]
  have hle : ∀ s, M.gen s ≤ upd M.gen d (M.gen d + 1) s := fun s => by
    by_cases hs : s = d
    · subst hs; simp [upd]
    · rw [hgen s hs]; exact Nat.le_refl _
  refine ⟨rfl, hσ, fun v x hx => ?_, fun v hv s g p q hm => ?_, fun v x hx => ?_, fun v hv s g p hm => ?_,
    fun v x hx => ?_, fun v hv s g p hm => ?_, fun v x hx => ?_, fun v hv s g p hm => ?_⟩
  · obtain ⟨h1, h2⟩ := Option.filter_eq_some_iff.mp hx
    have hd : x.string ≠ d := by simpa using h2
    have := r.view v x h1
    simp only [HeldWorld.stored, hf _ hd, hgen _ hd]
    exact this
  · simp only [HeldWorld.stored] at hv
    cases hw : w.views v with
    | none => exact Nat.lt_of_lt_of_le (r.noView v hw s g p q hm) (hle s)
    | some x =>
      have hd : x.string = d := by simpa [hw, Option.filter_some] using hv
      have := (r.view v x hw).2.2
      simp only [this, Option.some.injEq, Prod.mk.injEq] at hm
      obtain ⟨rfl, rfl, _⟩ := hm
      simp [upd, hd]
  · obtain ⟨h1, h2⟩ := Option.filter_eq_some_iff.mp hx
    have hd : x.string ≠ d := by simpa using h2
    have := r.it v x h1
    simp only [HeldWorld.stored, hf _ hd, hgen _ hd]
    exact this
  · simp only [HeldWorld.stored] at hv
    cases hw : w.its v with
    | none => exact Nat.lt_of_lt_of_le (r.noIt v hw s g p hm) (hle s)
    | some x =>
      have hd : x.string = d := by simpa [hw, Option.filter_some] using hv
      have := (r.it v x hw).2
      simp only [this, Option.some.injEq, Prod.mk.injEq] at hm
      obtain ⟨rfl, rfl, _⟩ := hm
      simp [upd, hd]
  · obtain ⟨h1, h2⟩ := Option.filter_eq_some_iff.mp hx
    have hd : x.string ≠ d := by simpa using h2
    have := r.git v x h1
    simp only [HeldWorld.stored, hf _ hd, hgen _ hd]
    exact this
  · simp only [HeldWorld.stored] at hv
    cases hw : w.gits v with
    | none => exact Nat.lt_of_lt_of_le (r.noGit v hw s g p hm) (hle s)
    | some x =>
      have hd : x.string = d := by simpa [hw, Option.filter_some] using hv
      have := (r.git v x hw).2
      simp only [this, Option.some.injEq, Prod.mk.injEq] at hm
      obtain ⟨rfl, rfl, _⟩ := hm
      simp [upd, hd]
  · obtain ⟨h1, h2⟩ := Option.filter_eq_some_iff.mp hx
    have hd : x.string ≠ d := by simpa using h2
    have := r.mit v x h1
    simp only [HeldWorld.stored, hf _ hd, hgen _ hd]
    exact this
  · simp only [HeldWorld.stored] at hv
    cases hw : w.mits v with
    | none => exact Nat.lt_of_lt_of_le (r.noMit v hw s g p hm) (hle s)
    | some x =>
      have hd : x.string = d := by simpa [hw, Option.filter_some] using hv
      obtain ⟨q, this, _⟩ := r.mit v x hw
      simp only [this, Option.some.injEq, Prod.mk.injEq] at hm
      obtain ⟨rfl, rfl, _⟩ := hm
      simp [upd, hd]

/-- After a statement that moves nothing. -/
theorem HeldRel.keep (r : HeldRel τ w M) {σ : Nat → List Nat} (hσ : Small σ)
    (hf : ∀ s, (σ s).length = (w.strings s).length ∧ ∀ i, place (τ s) (σ s) i = place (τ s) (w.strings s) i) :
    HeldRel τ (w.stored σ none) { M with strings := memory τ σ } := by
  refine ⟨rfl, hσ, fun v x hx => ?_, r.noView, fun v x hx => ?_, r.noIt, fun v x hx => ?_, r.noGit,
    fun v x hx => ?_, r.noMit⟩
  · simp only [HeldWorld.stored, (hf _).1, (hf _).2]; exact r.view v x hx
  · simp only [HeldWorld.stored, (hf _).1, (hf _).2]; exact r.it v x hx
  · simp only [HeldWorld.stored, (hf _).1, (hf _).2]; exact r.git v x hx
  · simp only [HeldWorld.stored, Within, (hf _).1, (hf _).2]; exact r.mit v x hx

theorem slice_inside {σ : Nat → List Nat} {x : Src} (h : Spec.Inside σ x) :
    (slice σ x).first ≤ (slice σ x).last ∧ (slice σ x).last ≤ (σ (slice σ x).string).length := by
  cases x with
  | whole s => exact ⟨Nat.zero_le _, Nat.le_refl _⟩
  | view s i j => exact h

theorem slice_src (σ : Nat → List Nat) (x : Src) : slice σ x = ⟨x.string, x.lo, x.hi σ⟩ := by cases x <;> rfl

theorem leading_eq {sort : SortFn} {cs : List Nat} {n : Nat} (h : (libraryData sort).Leading cs n) :
    n = firstLen (ints cs) := by
  obtain ⟨gs, hgs, rfl⟩ := h
  obtain ⟨gs0, _, hseg, huniq⟩ := graphemes_nat sort cs
  obtain rfl := huniq _ hgs
  cases cs with
  | nil =>
    have : gs = [] := by simpa [segments] using hseg
    subst this; rfl
  | cons c l =>
    rw [ints, List.map_cons, segments_cons'] at hseg
    cases gs with
    | nil => simp at hseg
    | cons g gs =>
      simp only [List.map_cons, List.cons.injEq] at hseg
      have := congrArg List.length hseg.1
      rw [List.length_map, List.length_take, Nat.min_eq_left (firstLen_le _)] at this
      simpa using this

theorem leading_exists (sort : SortFn) (cs : List Nat) : (libraryData sort).Leading cs (firstLen (ints cs)) := by
  obtain ⟨gs, h, _⟩ := graphemes_nat sort cs
  have : (libraryData sort).Leading cs _ := ⟨gs, h, rfl⟩
  rw [← leading_eq this]; exact this

/-- Iteration over the codepoints from `i` to `j` of a stored string. -/
theorem place_window (k : Spec.Kind) (cs : List Nat) (h : ∀ c ∈ cs, c < 2 ^ 31) (i j : Nat) (hij : i ≤ j) (hj : j ≤ cs.length) :
    Sim (Spec.stored k cs).iter (fun n => place k cs (i + n)) (ints ((cs.take j).drop i)) := by
  have := (place_sim k cs h).window i j hij (by simpa using hj)
  rwa [← List.map_take, ← List.map_drop] at this

theorem exec_held (r : HeldRel τ w M) {sort : SortFn} (hs : ConformingSort sort) (st : HeldStmt)
    (ha : (libraryData sort).MayHeld τ w st) (w1 : HeldWorld) (o : Obs) (hd : (libraryData sort).DoesHeld w st w1 o) :
    ∃ M1 N, HeldRel τ w1 M1 ∧ ∀ fuel, N ≤ fuel → M.exec sort fuel st = .ok (M1, o) := by
  cases st with
  | op op =>
    obtain ⟨op', σ, hp, hi, rfl⟩ := hd
    obtain ⟨⟨op2, hp2, hperm⟩, _⟩ := ha
    obtain rfl : op' = op2 := Option.some.inj (hp.symm.trans hp2)
    obtain ⟨hsm, N, hN⟩ := viewStep_refines τ hs w.strings r.small op' hperm σ o hi
    have hfr := plain_frame hp hperm hi
    have hstep : ∀ fuel, N ≤ fuel → M.step sort fuel op = .ok (memory τ σ, o) := fun fuel hf => by
      rw [r.step_eq hp hperm, r.strings, hN fuel hf]
    cases hst : storesIn op with
    | some d =>
      rw [hst] at hfr
      refine ⟨_, N, r.store hsm d hfr, fun fuel hf => ?_⟩
      simp only [HeldMachine.exec, hstep fuel hf, Res.bind_ok, invalidates_held, hst, Res.pure_eq]
    | none =>
      rw [hst] at hfr
      refine ⟨_, N, r.keep hsm hfr, fun fuel hf => ?_⟩
      simp only [HeldMachine.exec, hstep fuel hf, Res.bind_ok, invalidates_held, hst, Res.pure_eq]
  | hold v pl =>
    obtain ⟨x, hx, rfl, rfl⟩ := hd
    obtain ⟨⟨y, hy, hin⟩, _⟩ := ha
    obtain rfl : x = y := Option.some.inj (hx.symm.trans hy)
    have hsl := slice_inside hin
    refine ⟨_, 0, r.setView v _ hsl.1 hsl.2, fun fuel _ => ?_⟩
    simp only [HeldMachine.exec, r.opened hx hin, Res.bind_ok, Res.pure_eq, slice_src]
  | first i pl =>
    obtain ⟨x, hx, rfl, rfl⟩ := hd
    obtain ⟨⟨y, hy, hin⟩, _⟩ := ha
    obtain rfl : x = y := Option.some.inj (hx.symm.trans hy)
    have hsl := slice_inside hin
    refine ⟨_, 0, r.setIt i ⟨(slice w.strings x).string, (slice w.strings x).first⟩ (Nat.le_trans hsl.1 hsl.2), fun fuel _ => ?_⟩
    simp only [HeldMachine.exec, r.opened hx hin, Res.bind_ok, Res.pure_eq, slice_src]
  | last i pl =>
    obtain ⟨x, hx, rfl, rfl⟩ := hd
    obtain ⟨⟨y, hy, hin⟩, _⟩ := ha
    obtain rfl : x = y := Option.some.inj (hx.symm.trans hy)
    have hsl := slice_inside hin
    refine ⟨_, 0, r.setIt i ⟨(slice w.strings x).string, (slice w.strings x).last⟩ hsl.2, fun fuel _ => ?_⟩
    simp only [HeldMachine.exec, r.opened hx hin, Res.bind_ok, Res.pure_eq, slice_src]
  | assign i j =>
    obtain ⟨x, hx, rfl, rfl⟩ := hd
    refine ⟨_, 0, r.setIt i x (r.it j x hx).1, fun fuel _ => ?_⟩
    simp only [HeldMachine.exec, r.getIt hx, Res.bind_ok, Res.pure_eq]
  | next i =>
    obtain ⟨x, hx, rfl, rfl⟩ := hd
    obtain ⟨y, hy, hlt⟩ := ha
    obtain rfl : x = y := Option.some.inj (hx.symm.trans hy)
    refine ⟨_, 0, r.setIt i ⟨x.string, x.index + 1⟩ hlt, fun fuel _ => ?_⟩
    have S := place_sim (τ x.string) (w.strings x.string) (r.small _)
    simp only [HeldMachine.exec, r.getIt hx, r.strings, S.inc x.index (by simpa using hlt), Res.bind_ok, Res.pure_eq]
  | prev i =>
    obtain ⟨x, hx, rfl, rfl⟩ := hd
    obtain ⟨y, hy, hpos⟩ := ha
    obtain rfl : x = y := Option.some.inj (hx.symm.trans hy)
    have hle := (r.it i x hx).1
    refine ⟨_, 0, r.setIt i ⟨x.string, x.index - 1⟩ (by simp only; omega), fun fuel _ => ?_⟩
    have S := place_sim (τ x.string) (w.strings x.string) (r.small _)
    have h1 := S.dec (x.index - 1) (by simp; omega)
    rw [Nat.sub_add_cancel hpos] at h1
    simp only [HeldMachine.exec, r.getIt hx, r.strings, h1, Res.bind_ok, Res.pure_eq]
  | get i =>
    obtain ⟨x, c, hx, hc, rfl, rfl⟩ := hd
    have S := place_sim (τ x.string) (w1.strings x.string) (r.small _)
    have h1 := S.deref x.index (Int.ofNat c) (by simp [hc])
    refine ⟨M.setIt i x.string (place (τ x.string) (w1.strings x.string) x.index), 0, ?_, fun fuel _ => by
      simp only [HeldMachine.exec, r.getIt hx, r.strings, h1, Res.bind_ok, Res.pure_eq]⟩
    have := r.setIt i x (r.it i x hx).1
    have e : w1.setIt i x = w1 := by
      simp only [HeldWorld.setIt]
      congr 1
      funext j
      by_cases h : j = i
      · simp [h, hx]
      · simp [h]
    rwa [e] at this
  | same i j =>
    obtain ⟨x, y, hx, hy, rfl, rfl⟩ := hd
    obtain ⟨x', y', hx', hy', he⟩ := ha
    obtain rfl : x = x' := Option.some.inj (hx.symm.trans hx')
    obtain rfl : y = y' := Option.some.inj (hy.symm.trans hy')
    have S := place_sim (τ x.string) (w1.strings x.string) (r.small _)
    have hyle := (r.it j y hy).1
    rw [← he] at hyle
    have h1 := S.eq x.index y.index (by simpa using (r.it i x hx).1) (by simpa using hyle)
    refine ⟨_, 0, r, fun fuel _ => ?_⟩
    simp only [HeldMachine.exec, r.getIt hx, r.getIt hy, r.strings, ← he, if_true, h1, Res.bind_ok, Res.pure_eq]
    congr 2
  | gfirst g pl =>
    obtain ⟨x, n, hx, hn, rfl, rfl⟩ := hd
    obtain ⟨⟨y, hy, hin⟩, _⟩ := ha
    obtain rfl : x = y := Option.some.inj (hx.symm.trans hy)
    have hn := leading_eq hn
    have hlen := text_length hin
    have hle : n ≤ x.hi w.strings - x.lo := by
      rw [hn]; have := firstLen_le (ints (text w.strings x)); simpa [hlen] using this
    obtain ⟨k1, k2⟩ := lo_hi hin
    refine ⟨_, (w.strings x.string).length + 1, r.setGit g ⟨(slice w.strings x).string, (slice w.strings x).first,
      (slice w.strings x).last, (slice w.strings x).first, (slice w.strings x).first + n⟩ ?_, fun fuel hf => ?_⟩
    · rw [slice_src]
      refine ⟨Nat.le_refl _, Nat.le_add_right _ _, (show x.lo + n ≤ x.hi w.strings by omega), k2, fun h => ?_⟩
      have h : x.lo = x.lo + n := h
      show x.lo = x.hi w.strings
      rcases Nat.eq_zero_or_pos (text w.strings x).length with h0 | h0
      · omega
      · have := firstLen_pos (l := ints (text w.strings x)) (by
          intro e; rw [ints, List.map_eq_nil_iff] at e; rw [e] at h0; exact absurd h0 (Nat.lt_irrefl 0))
        omega
    · have S := place_window (τ x.string) (w.strings x.string) (r.small _) x.lo (x.hi w.strings) k1 k2
      rw [← text_eq] at S
      have := graphemeBegin_sim S fuel (by simp; omega)
      rw [← hn, List.length_map, hlen, Nat.add_zero, Nat.add_sub_cancel' k1] at this
      simp only [HeldMachine.exec, r.opened hx hin, r.strings, this, Res.bind_ok, Res.pure_eq, slice_src]
  | glast g pl =>
    obtain ⟨x, hx, rfl, rfl⟩ := hd
    obtain ⟨⟨y, hy, hin, hdel⟩, _⟩ := ha
    obtain rfl : x = y := Option.some.inj (hx.symm.trans hy)
    have hlen := text_length hin
    obtain ⟨k1, k2⟩ := lo_hi hin
    refine ⟨_, (w.strings x.string).length + 1, r.setGit g ⟨(slice w.strings x).string, (slice w.strings x).first,
      (slice w.strings x).last, (slice w.strings x).last, (slice w.strings x).last⟩ ?_, fun fuel hf => ?_⟩
    · rw [slice_src]
      exact ⟨k1, Nat.le_refl _, Nat.le_refl _, k2, fun _ => rfl⟩
    · have S := place_window (τ x.string) (w.strings x.string) (r.small _) x.lo (x.hi w.strings) k1 k2
      rw [← text_eq] at S
      obtain ⟨I, p, q, pos, ho, hp, hq, _, _, _, hder⟩ := opened_sim τ r.small hin
      have hI : I = (memory τ w.strings x.string).iter := by
        obtain ⟨p', q', _, h2⟩ := r.opened_eq hx hin
        rw [r.strings, ho] at h2
        simp only [Res.ok.injEq, Prod.mk.injEq] at h2
        exact h2.1
      have hq' : q = place (τ x.string) (w.strings x.string) (x.hi w.strings) := hq
      rw [hI, hq'] at hder
      have := graphemeEnd_sim S fuel (by simp; omega) (Int.ofNat (after w.strings x)) (by
        rw [List.length_map, hlen, Nat.add_sub_cancel' k1]; exact hder) (fun a hlast => by
          rw [List.getLast?_map] at hlast
          obtain ⟨n, hn, rfl⟩ := Option.map_eq_some_iff.mp hlast
          exact (isGraphemeBoundary_iff _ _).mpr (hdel n hn))
      rw [List.length_map, hlen, Nat.add_zero, Nat.add_sub_cancel' k1] at this
      simp only [HeldMachine.exec, r.opened hx hin, r.strings, this, Res.bind_ok, Res.pure_eq, slice_src]
  | gassign g h =>
    obtain ⟨x, hx, rfl, rfl⟩ := hd
    refine ⟨_, 0, r.setGit g x (r.git h x hx).1, fun fuel _ => ?_⟩
    simp only [HeldMachine.exec, r.getGit hx, Res.bind_ok, Res.pure_eq]
  | gnext g =>
    obtain ⟨x, n, hx, hn, rfl, rfl⟩ := hd
    obtain ⟨k1, k2, k3, k4, k5⟩ := (r.git g x hx).1
    have hn := leading_eq hn
    have hle : n ≤ x.stop - x.last := by
      rw [hn]
      have := firstLen_le (ints (((w.strings x.string).take x.stop).drop x.last))
      simp only [ints, List.length_map, List.length_drop, List.length_take] at this
      simp only [ints]
      omega
    refine ⟨_, (w.strings x.string).length + 1, r.setGit g ⟨x.string, x.start, x.stop, x.last, x.last + n⟩
      ⟨by simp only; omega, Nat.le_add_right _ _, by simp only; omega, k4, fun h => ?_⟩, fun fuel hf => ?_⟩
    · have h : x.last = x.last + n := h
      show x.last = x.stop
      rcases Nat.lt_or_eq_of_le k3 with hlt | he
      · have := firstLen_pos (l := ints (((w.strings x.string).take x.stop).drop x.last)) (by
          intro hnil
          have := congrArg List.length hnil
          simp at this; omega)
        omega
      · exact he
    · have S := place_window (τ x.string) (w.strings x.string) (r.small _) 0 x.stop (Nat.zero_le _) k4
      simp only [Nat.zero_add, List.drop_zero] at S
      have hl : (ints ((w.strings x.string).take x.stop)).length = x.stop := by simp; omega
      have := findEnd_sim S fuel x.last (by omega) (by omega)
      rw [hl] at this
      have e : (ints ((w.strings x.string).take x.stop)).drop x.last =
          ints (((w.strings x.string).take x.stop).drop x.last) := by simp [ints]
      rw [e, ← hn] at this
      simp only [HeldMachine.exec, r.getGit hx, r.strings, Res.bind_ok, GIter.inc, this, Res.pure_eq]
  | gget g =>
    obtain ⟨x, hx, rfl, rfl⟩ := hd
    obtain ⟨k1, k2, k3, k4, k5⟩ := (r.git g x hx).1
    refine ⟨M, (w1.strings x.string).length + 1, r, fun fuel hf => ?_⟩
    have S := place_sim (τ x.string) (w1.strings x.string) (r.small _)
    have := readRange_eq S x.first x.last k2 (by simp; omega) fuel (by omega)
    simp only [HeldMachine.exec, r.getGit hx, r.strings, Res.bind_ok, this, Res.pure_eq]
    simp [ints]
  | gsame g h =>
    obtain ⟨x, y, b, hx, hy, hb, rfl, rfl⟩ := hd
    obtain ⟨x', y', hx', hy', hxy, hstop⟩ := ha
    obtain rfl : x = x' := Option.some.inj (hx.symm.trans hx')
    obtain rfl : y = y' := Option.some.inj (hy.symm.trans hy')
    obtain ⟨k1, k2, k3, k4, k5⟩ := (r.git g x hx).1
    obtain ⟨l1, l2, l3, l4, l5⟩ := (r.git h y hy).1
    refine ⟨M, (w1.strings x.string).length + 1, r, fun fuel hf => ?_⟩
    have S := place_window (τ x.string) (w1.strings x.string) (r.small _) 0 x.stop (Nat.zero_le _) k4
    simp only [Nat.zero_add, List.drop_zero] at S
    have hl : (ints ((w1.strings x.string).take x.stop)).length = x.stop := by simp; omega
    have := eqG_sim S fuel x.start y.start x.first x.last y.first y.last k2 (by omega) l2 (by omega) (by omega)
    rw [hl] at this
    simp only [HeldMachine.exec, r.getGit hx, r.getGit hy, r.strings, ← hxy, ← hstop, Res.bind_ok, if_true, this,
      Res.pure_eq]
    congr 3
    rw [Bool.eq_iff_iff, hb, decide_eq_true_eq, Sweep.Same]
    constructor
    · rintro (⟨h1, h2⟩ | ⟨i, i1, i2, i3⟩)
      · exact .inl ⟨h1, by omega⟩
      · refine .inr ⟨i, ⟨i2, i1⟩, ?_⟩
        rcases Nat.lt_or_eq_of_le l2 with hl | he
        · omega
        · have := l5 he; omega
    · rintro (⟨h1, h2⟩ | ⟨i, ⟨i1, i2⟩, i3⟩)
      · exact .inl ⟨h1, by omega⟩
      · exact .inr ⟨i, i2, i1, .inr i3⟩
  | gstart i g =>
    obtain ⟨x, hx, rfl, rfl⟩ := hd
    obtain ⟨k1, k2, k3, k4, k5⟩ := (r.git g x hx).1
    refine ⟨_, 0, r.setIt i ⟨x.string, x.first⟩ (by simp only; omega), fun fuel _ => ?_⟩
    simp only [HeldMachine.exec, r.getGit hx, Res.bind_ok, Res.pure_eq]
  | gstop i g =>
    obtain ⟨x, hx, rfl, rfl⟩ := hd
    obtain ⟨k1, k2, k3, k4, k5⟩ := (r.git g x hx).1
    refine ⟨_, 0, r.setIt i ⟨x.string, x.last⟩ (by simp only; omega), fun fuel _ => ?_⟩
    simp only [HeldMachine.exec, r.getGit hx, Res.bind_ok, Res.pure_eq]
  | mfirst m s =>
    obtain ⟨rfl, rfl⟩ := hd
    refine ⟨_, 0, r.setMit m ⟨s, 0, false⟩ _ (within_place _ (r.small s) (Nat.zero_le _)) fun _ => rfl, fun fuel _ => ?_⟩
    simp only [HeldMachine.exec, place_zero]
  | mlast m s =>
    obtain ⟨rfl, rfl⟩ := hd
    refine ⟨_, 0, r.setMit m ⟨s, (w.strings s).length, false⟩ _ (within_place _ (r.small s) (Nat.le_refl _)) fun _ => rfl,
      fun fuel _ => ?_⟩
    simp only [HeldMachine.exec, place_length, r.strings]
  | massign m n =>
    obtain ⟨x, hx, rfl, rfl⟩ := hd
    obtain ⟨p, hp, hw, hw'⟩ := r.getMit hx
    refine ⟨_, 0, r.setMit m x p hw hw', fun fuel _ => ?_⟩
    simp only [HeldMachine.exec, hp, Res.bind_ok, Res.pure_eq]
  | mnext m =>
    obtain ⟨x, hx, rfl, rfl⟩ := hd
    obtain ⟨y, hy, hlt⟩ := ha
    obtain rfl : x = y := Option.some.inj (hx.symm.trans hy)
    obtain ⟨p, hp, hw, _⟩ := r.getMit hx
    refine ⟨_, 0, r.setMit m ⟨x.string, x.index + 1, false⟩ _ (within_place _ (r.small _) hlt) fun _ => rfl, fun fuel _ => ?_⟩
    simp only [HeldMachine.exec, hp, r.strings, within_inc _ (r.small _) hlt hw, Res.bind_ok, Res.pure_eq]
  | mprev m =>
    obtain ⟨x, hx, rfl, rfl⟩ := hd
    obtain ⟨y, hy, hpos⟩ := ha
    obtain rfl : x = y := Option.some.inj (hx.symm.trans hy)
    obtain ⟨p, hp, hw, _⟩ := r.getMit hx
    have hle := hw.le
    refine ⟨_, 0, r.setMit m ⟨x.string, x.index - 1, false⟩ _ (within_place _ (r.small _) (by simp only; omega)) fun _ => rfl,
      fun fuel _ => ?_⟩
    simp only [HeldMachine.exec, hp, r.strings, within_dec _ (r.small _) hpos hw, Res.bind_ok, Res.pure_eq]
  | mget m =>
    obtain ⟨x, c, hx, hc, rfl, rfl⟩ := hd
    obtain ⟨p, hp, hw, _⟩ := r.getMit hx
    refine ⟨M, 0, r, fun fuel _ => ?_⟩
    simp only [HeldMachine.exec, hp, r.strings, within_deref _ (r.small _) hc hw, Res.bind_ok, Res.pure_eq]
  | msame m n =>
    obtain ⟨x, y, hx, hy, rfl, rfl⟩ := hd
    obtain ⟨x', y', hx', hy', he⟩ := ha
    obtain rfl : x = x' := Option.some.inj (hx.symm.trans hx')
    obtain rfl : y = y' := Option.some.inj (hy.symm.trans hy')
    obtain ⟨p, hp, hw, _⟩ := r.getMit hx
    obtain ⟨q, hq, hv, _⟩ := r.getMit hy
    rw [← he] at hq hv
    refine ⟨M, 0, r, fun fuel _ => ?_⟩
    simp only [HeldMachine.exec, hp, hq, r.strings, within_eq _ (r.small _) hw hv, Res.bind_ok, Res.pure_eq, if_true]
    congr 3
  | mset m c =>
    obtain ⟨x, σ, hx, hi, rfl⟩ := hd
    obtain ⟨y, hy, hperm, hwr⟩ := ha
    obtain rfl : x = y := Option.some.inj (hx.symm.trans hy)
    have hfr := plain_frame (op := .write x.string x.index c) rfl hperm hi
    have hsm := (viewStep_refines τ hs w.strings r.small _ hperm σ o hi).1
    obtain ⟨⟨n, hcn, rfl⟩, rfl⟩ := hi
    obtain ⟨n', old, hcn', hold, hh, hsz⟩ := hperm
    obtain rfl : n = n' := by omega
    subst hcn
    obtain ⟨p, hp, hw, hw'⟩ := r.getMit hx
    have hpl : p = place (τ x.string) (w.strings x.string) x.index := within_start hold hw hw' hwr
    subst hpl
    obtain ⟨q, hq, he⟩ := within_assign (τ x.string) (r.small x.string) hold hh hsz
    have hput : Spec.put w.strings x.string ((w.strings x.string).set x.index n) x.string =
        (w.strings x.string).set x.index n := by simp [Spec.put]
    have r' := (r.keep hsm hfr).setMit m ⟨x.string, x.index, true⟩ q (by
      show Within _ (Spec.put w.strings x.string ((w.strings x.string).set x.index n) x.string) _ _
      rw [hput]; exact hq) (fun h => by cases h)
    refine ⟨_, 0, r', fun fuel _ => ?_⟩
    simp only [HeldMachine.exec, hp, r.strings, Res.bind_ok, Res.pure_eq]
    have he' := he
    simp only [Res.pure_eq] at he'
    rw [memory_upd]
    show ((memory τ w.strings x.string).edit _ >>= _) = _
    rw [show memory τ w.strings x.string = Spec.stored (τ x.string) (w.strings x.string) from rfl, he', Res.bind_ok]

/-- `Sweep.Same` as a computation. -/
def sameB (x y : Sweep) : Bool :=
  (decide (x.first = x.stop) && decide (y.first = y.stop)) || decide (max x.first y.first < min x.last y.last)

theorem sameB_iff (x y : Sweep) : sameB x y = true ↔ x.Same y := by
  simp only [sameB, Sweep.Same, Bool.or_eq_true, Bool.and_eq_true, decide_eq_true_eq]
  refine or_congr Iff.rfl ⟨fun h => ⟨max x.first y.first, by omega, by omega⟩, fun ⟨i, h1, h2⟩ => by omega⟩

theorem does_held_exists (sort : SortFn) (w : HeldWorld) (st : HeldStmt) (ha : (libraryData sort).MayHeld τ w st) :
    ∃ w1 o, (libraryData sort).DoesHeld w st w1 o := by
  cases st with
  | op op =>
    obtain ⟨⟨op', hp, hperm⟩, _⟩ := ha
    exact ⟨_, _, op', _, hp, idealVF_spec sort τ w.strings op' hperm, rfl⟩
  | hold v pl => obtain ⟨⟨x, hx, _⟩, _⟩ := ha; exact ⟨_, _, x, hx, rfl, rfl⟩
  | first i pl => obtain ⟨⟨x, hx, _⟩, _⟩ := ha; exact ⟨_, _, x, hx, rfl, rfl⟩
  | last i pl => obtain ⟨⟨x, hx, _⟩, _⟩ := ha; exact ⟨_, _, x, hx, rfl, rfl⟩
  | assign i j => obtain ⟨x, hx⟩ := ha; exact ⟨_, _, x, hx, rfl, rfl⟩
  | next i => obtain ⟨x, hx, _⟩ := ha; exact ⟨_, _, x, hx, rfl, rfl⟩
  | prev i => obtain ⟨x, hx, _⟩ := ha; exact ⟨_, _, x, hx, rfl, rfl⟩
  | get i => obtain ⟨x, hx, h⟩ := ha; exact ⟨_, _, x, _, hx, List.getElem?_eq_getElem h, rfl, rfl⟩
  | same i j => obtain ⟨x, y, hx, hy, _⟩ := ha; exact ⟨_, _, x, y, hx, hy, rfl, rfl⟩
  | gfirst g pl => obtain ⟨⟨x, hx, _⟩, _⟩ := ha; exact ⟨_, _, x, _, hx, leading_exists sort _, rfl, rfl⟩
  | glast g pl => obtain ⟨⟨x, hx, _⟩, _⟩ := ha; exact ⟨_, _, x, hx, rfl, rfl⟩
  | gassign g h => obtain ⟨x, hx⟩ := ha; exact ⟨_, _, x, hx, rfl, rfl⟩
  | gnext g => obtain ⟨x, hx⟩ := ha; exact ⟨_, _, x, _, hx, leading_exists sort _, rfl, rfl⟩
  | gget g => obtain ⟨x, hx⟩ := ha; exact ⟨_, _, x, hx, rfl, rfl⟩
  | gsame g h =>
    obtain ⟨x, y, hx, hy, _⟩ := ha
    exact ⟨_, _, x, y, sameB x y, hx, hy, sameB_iff x y, rfl, rfl⟩
  | gstart i g => obtain ⟨x, hx⟩ := ha; exact ⟨_, _, x, hx, rfl, rfl⟩
  | gstop i g => obtain ⟨x, hx⟩ := ha; exact ⟨_, _, x, hx, rfl, rfl⟩
  | mfirst m s => exact ⟨_, _, rfl, rfl⟩
  | mlast m s => exact ⟨_, _, rfl, rfl⟩
  | massign m n => obtain ⟨x, hx⟩ := ha; exact ⟨_, _, x, hx, rfl, rfl⟩
  | mnext m => obtain ⟨x, hx, _⟩ := ha; exact ⟨_, _, x, hx, rfl, rfl⟩
  | mprev m => obtain ⟨x, hx, _⟩ := ha; exact ⟨_, _, x, hx, rfl, rfl⟩
  | mget m => obtain ⟨x, hx, h⟩ := ha; exact ⟨_, _, x, _, hx, List.getElem?_eq_getElem h, rfl, rfl⟩
  | msame m n => obtain ⟨x, y, hx, hy, _⟩ := ha; exact ⟨_, _, x, y, hx, hy, rfl, rfl⟩
  | mset m c =>
    obtain ⟨x, hx, hperm, _⟩ := ha
    exact ⟨_, _, x, _, hx, idealVF_spec sort τ w.strings _ hperm, rfl⟩

theorem does_held_unique (sort : SortFn) (w : HeldWorld) (st : HeldStmt) {w1 w2 : HeldWorld} {o1 o2 : Obs}
    (h1 : (libraryData sort).DoesHeld w st w1 o1) (h2 : (libraryData sort).DoesHeld w st w2 o2) : w1 = w2 ∧ o1 = o2 := by
  have inj : ∀ {α : Type} {a : Option α} {x y : α}, a = some x → a = some y → x = y := fun h h' =>
    Option.some.inj (h.symm.trans h')
  cases st with
  | op op =>
    obtain ⟨op', σ, hp, hi, rfl⟩ := h1
    obtain ⟨op2, σ2, hp2, hi2, rfl⟩ := h2
    obtain rfl := inj hp hp2
    obtain ⟨rfl, rfl⟩ := idealV_unique sort w.strings op' hi hi2
    exact ⟨rfl, rfl⟩
  | mfirst | mlast =>
    obtain ⟨rfl, rfl⟩ := h1
    obtain ⟨rfl, rfl⟩ := h2
    exact ⟨rfl, rfl⟩
  | mset m c =>
    obtain ⟨x, σ, hx, hi, rfl⟩ := h1
    obtain ⟨y, σ2, hy, hi2, rfl⟩ := h2
    obtain rfl := inj hx hy
    obtain ⟨rfl, rfl⟩ := idealV_unique sort w.strings _ hi hi2
    exact ⟨rfl, rfl⟩
  | hold | first | last | assign | next | prev | glast | gassign | gget | gstart | gstop | massign | mnext | mprev =>
    obtain ⟨x, hx, rfl, rfl⟩ := h1
    obtain ⟨y, hy, rfl, rfl⟩ := h2
    obtain rfl := inj hx hy
    exact ⟨rfl, rfl⟩
  | get | mget =>
    obtain ⟨x, c, hx, hc, rfl, rfl⟩ := h1
    obtain ⟨y, d, hy, hd, rfl, rfl⟩ := h2
    obtain rfl := inj hx hy
    obtain rfl := inj hc hd
    exact ⟨rfl, rfl⟩
  | same | msame =>
    obtain ⟨x, y, hx, hy, rfl, rfl⟩ := h1
    obtain ⟨x', y', hx', hy', rfl, rfl⟩ := h2
    obtain rfl := inj hx hx'
    obtain rfl := inj hy hy'
    exact ⟨rfl, rfl⟩
  | gfirst | gnext =>
    obtain ⟨x, n, hx, hn, rfl, rfl⟩ := h1
    obtain ⟨y, m, hy, hm, rfl, rfl⟩ := h2
    obtain rfl := inj hx hy
    rw [leading_eq hn, leading_eq hm]
    exact ⟨rfl, rfl⟩
  | gsame g h =>
    obtain ⟨x, y, b, hx, hy, hb, rfl, rfl⟩ := h1
    obtain ⟨x', y', b', hx', hy', hb', rfl, rfl⟩ := h2
    obtain rfl := inj hx hx'
    obtain rfl := inj hy hy'
    have : b = b' := by rw [Bool.eq_iff_iff, hb, hb']
    exact ⟨rfl, by rw [this]⟩

theorem held_start (τ : Nat → Spec.Kind) (σ : Nat → List Nat) (hσ : Small σ) :
    HeldRel τ (HeldWorld.start σ) (HeldMachine.start (memory τ σ)) :=
  ⟨rfl, hσ, by simp [HeldWorld.start], by simp [HeldMachine.start],
    by simp [HeldWorld.start], by simp [HeldMachine.start], by simp [HeldWorld.start], by simp [HeldMachine.start],
    by simp [HeldWorld.start], by simp [HeldMachine.start]⟩

theorem run_held {sort : SortFn} (hs : ConformingSort sort) (client : HeldClient) (n : Nat) :
    ∀ (w : HeldWorld) (M : HeldMachine) (os : List Obs), HeldRel τ w M →
    (libraryData sort).MayRunHeld τ client n w os →
    ∃ w' M' os' N, (libraryData sort).RunsHeld client n w os w' os' ∧ HeldRel τ w' M' ∧
      ∀ fuel, N ≤ fuel → HeldMachine.run sort fuel client n M os = .ok (M', os') := by
  induction n with
  | zero => intro w M os r _; exact ⟨w, M, os, 0, .limit w os, r, fun _ _ => rfl⟩
  | succ n ih =>
    intro w M os r ha
    cases hc : client os with
    | none => exact ⟨w, M, os, 0, .finished n w os hc, r, fun _ _ => by simp only [HeldMachine.run, hc]⟩
    | some st =>
      obtain ⟨hm, hrest⟩ := ha st hc
      obtain ⟨w1, o, hd⟩ := does_held_exists sort w st hm
      obtain ⟨M1, N, r1, hN⟩ := exec_held r hs st hm w1 o hd
      obtain ⟨w2, M2, os2, N2, hrun, r2, hN2⟩ := ih w1 M1 (os ++ [o]) r1 (hrest w1 o hd)
      refine ⟨w2, M2, os2, max N N2, .step n w os st w1 o w2 os2 hc hd hrun, r2, fun fuel hf => ?_⟩
      simp only [HeldMachine.run, hc, hN fuel (by omega), Res.bind_ok, hN2 fuel (by omega)]

/-- C78. Any program over any number of strings, each UTF-8 or utf32ne, with any number of views and codepoint iterators
kept in variables, each statement depending on what was printed so far and allowed where the program gets to it: its
first `n` statements have no undefined behaviour for any conforming sort, print what they print on plain sequences of
codepoints with views and iterators being indices, and leave in every string the encoding of what it should hold. -/
theorem C78_programs (τ : Nat → Spec.Kind) (sort : SortFn) (hs : ConformingSort sort) (client : HeldClient) (n : Nat)
    (σ : Nat → List Nat) (hσ : ∀ k, ∀ c ∈ σ k, c < 2 ^ 31)
    (ha : (libraryData sort).MayRunHeld τ client n (HeldWorld.start σ) []) :
    ∃ w os N, (libraryData sort).RunsHeld client n (HeldWorld.start σ) [] w os ∧ ∀ fuel, N ≤ fuel → ∃ M,
      HeldMachine.run sort fuel client n (HeldMachine.start fun s => Spec.stored (τ s) (σ s)) [] = .ok (M, os) ∧
      M.strings = fun s => Spec.stored (τ s) (w.strings s) := by
  obtain ⟨w, M, os, N, h1, r, h2⟩ := run_held hs client n _ _ [] (held_start τ σ hσ) ha
  exact ⟨w, os, N, h1, fun fuel hf => ⟨M, h2 fuel hf, r.strings⟩⟩

/-- C78: the ideal run is determined by the program and the initial texts. -/
theorem C78_deterministic (sort : SortFn) (client : HeldClient) (n : Nat) (w w1 w2 : HeldWorld) (os os1 os2 : List Obs)
    (h1 : (libraryData sort).RunsHeld client n w os w1 os1) (h2 : (libraryData sort).RunsHeld client n w os w2 os2) :
    w1 = w2 ∧ os1 = os2 := by
  induction h1 with
  | limit w os => cases h2; exact ⟨rfl, rfl⟩
  | finished n w os hc =>
    cases h2 with
    | finished _ _ _ _ => exact ⟨rfl, rfl⟩
    | step _ _ _ st _ _ _ _ hc' _ _ => rw [hc] at hc'; cases hc'
  | step n w os st w1 o w' os' hc hd _ ih =>
    cases h2 with
    | finished _ _ _ hc' => rw [hc] at hc'; cases hc'
    | step _ _ _ st' v1 o' _ _ hc' hd' hrest =>
      obtain rfl := Option.some.inj (hc.symm.trans hc')
      obtain ⟨rfl, rfl⟩ := does_held_unique sort w st hd hd'
      exact ih hrest

/-- C78: which strings are UTF-8 and which are utf32ne makes no difference to what is printed nor to the texts in the
end, as long as the program is allowed with both choices. -/
theorem C78_encodings_irrelevant (τ τ' : Nat → Spec.Kind) (sort : SortFn) (hs : ConformingSort sort) (client : HeldClient)
    (n : Nat) (σ : Nat → List Nat) (hσ : ∀ k, ∀ c ∈ σ k, c < 2 ^ 31)
    (ha : (libraryData sort).MayRunHeld τ client n (HeldWorld.start σ) [])
    (ha' : (libraryData sort).MayRunHeld τ' client n (HeldWorld.start σ) []) :
    ∃ (σ' : Nat → List Nat) (os : List Obs) (N : Nat), ∀ fuel, N ≤ fuel → ∃ M M',
      HeldMachine.run sort fuel client n (HeldMachine.start fun s => Spec.stored (τ s) (σ s)) [] = .ok (M, os) ∧
      HeldMachine.run sort fuel client n (HeldMachine.start fun s => Spec.stored (τ' s) (σ s)) [] = .ok (M', os) ∧
      (M.strings = fun s => Spec.stored (τ s) (σ' s)) ∧ M'.strings = fun s => Spec.stored (τ' s) (σ' s) := by
  obtain ⟨w, os, N, h1, h2⟩ := C78_programs τ sort hs client n σ hσ ha
  obtain ⟨w', os', N', h1', h2'⟩ := C78_programs τ' sort hs client n σ hσ ha'
  obtain ⟨rfl, rfl⟩ := C78_deterministic sort client n _ _ _ _ _ _ h1 h1'
  refine ⟨w.strings, os, max N N', fun fuel hf => ?_⟩
  obtain ⟨M, a, b⟩ := h2 fuel (by omega)
  obtain ⟨M', a', b'⟩ := h2' fuel (by omega)
  exact ⟨M, M', a, a', b, b'⟩

theorem stdNext_ok_or_ub {I : CpIter} (h : ∀ p, I.inc p ≠ .tmo) (n p : Nat) : stdNext I n p ≠ .tmo := by
  induction n generalizing p with
  | zero => simp [stdNext]
  | succ n ih =>
    simp only [stdNext]
    cases e : I.inc p with
    | ok q => exact ih q
    | ub => simp
    | tmo => exact absurd e (h p)

theorem text_inc_ne_tmo (x : Text) (p : Nat) : x.iter.inc p ≠ .tmo := by
  cases x with
  | utf8 m => exact fwd_no_tmo _ _
  | utf32 m =>
    show (if p + 1 ≤ (m ++ [0]).length then Res.ok (p + 1) else .ub) ≠ .tmo
    split <;> simp

theorem HeldMachine.view_ne_tmo (M : HeldMachine) (v : Nat) : M.view v ≠ .tmo := by
  rw [HeldMachine.view]
  split
  · split <;> simp
  · simp

theorem HeldMachine.it_ne_tmo (M : HeldMachine) (i : Nat) : M.it i ≠ .tmo := by
  rw [HeldMachine.it]
  split
  · split <;> simp
  · simp

theorem HeldMachine.git_ne_tmo (M : HeldMachine) (i : Nat) : M.git i ≠ .tmo := by
  rw [HeldMachine.git]
  split
  · split <;> simp
  · simp

theorem HeldMachine.mit_ne_tmo (M : HeldMachine) (i : Nat) : M.mit i ≠ .tmo := by
  rw [HeldMachine.mit]
  split
  · split <;> simp
  · simp

theorem bind_ne_tmo {α β : Type} {r : Res α} {f : α → Res β} (h : r ≠ .tmo) (hf : ∀ x, f x ≠ .tmo) : (r >>= f) ≠ .tmo := by
  cases r with
  | ok x => exact hf x
  | ub => simp
  | tmo => exact absurd rfl h

theorem HeldMachine.opened_ne_tmo (M : HeldMachine) (pl : Place) : M.opened pl ≠ .tmo := by
  have hn := fun s n p => stdNext_ok_or_ub (I := (M.strings s).iter) (text_inc_ne_tmo (M.strings s)) n p
  have hif : ∀ {c : Prop} [Decidable c] (x : Nat × Nat × Nat), (if c then (pure x : Res _) else .ub) ≠ .tmo := by
    intro c _ x; split <;> simp
  cases pl with
  | whole s => simp [HeldMachine.opened]
  | view s i j => exact bind_ne_tmo (hn _ _ _) fun p => bind_ne_tmo (hn _ _ _) fun q => hif _
  | held v => exact M.view_ne_tmo v
  | part v i j =>
    exact bind_ne_tmo (M.view_ne_tmo v) fun x => bind_ne_tmo (hn _ _ _) fun p => bind_ne_tmo (hn _ _ _) fun q => hif _
  | between i j => exact bind_ne_tmo (M.it_ne_tmo i) fun x => bind_ne_tmo (M.it_ne_tmo j) fun y => hif _

theorem bind_ub_ub {α β : Type} {r : Res α} (h : r ≠ .tmo) : (r >>= fun _ => (.ub : Res β)) = .ub := by
  cases r with
  | ok x => rfl
  | ub => rfl
  | tmo => exact absurd rfl h

theorem HeldRel.opened_ub (r : HeldRel τ w M) {pl : Place} (h : w.source pl = none) : M.opened pl = .ub := by
  cases pl with
  | whole s => simp [HeldWorld.source] at h
  | view s i j => simp [HeldWorld.source] at h
  | held v =>
    simp only [HeldWorld.source] at h
    split at h
    · cases h
    · exact r.view_ub (by assumption)
  | part v i j =>
    simp only [HeldWorld.source] at h
    split at h
    · cases h
    · rename_i hv
      simp only [HeldMachine.opened, r.view_ub hv, Res.bind_ub]
  | between i j =>
    simp only [HeldMachine.opened]
    cases hi : w.its i with
    | none => simp only [r.it_ub hi, Res.bind_ub]
    | some a =>
      cases hj : w.its j with
      | none => simp only [r.it_ub hj, r.getIt hi, Res.bind_ok, Res.bind_ub]
      | some b =>
        have hne : a.string ≠ b.string := fun e => by simp [HeldWorld.source, hi, hj, e] at h
        simp only [r.getIt hi, r.getIt hj, Res.bind_ok, hne, false_and, if_false]

theorem exec_dangling (r : HeldRel τ w M) (sort : SortFn) (st : HeldStmt) (hu : Dangling w st) (fuel : Nat) :
    M.exec sort fuel st = .ub := by
  rcases hu with ⟨pl, hm, hn⟩ | ⟨i, hm, hn⟩ | ⟨i, hm, hn⟩ | ⟨i, hm, hn⟩ | ⟨i, hm, j, hm', x, y, hx, hy, hne⟩ |
    ⟨i, hm, j, hm', x, y, hx, hy, hne⟩ | ⟨i, hm, j, hm', x, y, hx, hy, hne⟩
  · have hub := r.opened_ub hn
    cases st with
    | op op =>
      have : M.step sort fuel op = .ub := by
        cases op <;> simp only [reads, List.mem_cons, List.not_mem_nil, or_false] at hm
        all_goals first
          | (subst hm; simp only [HeldMachine.step, hub, Res.bind_ub]; done)
          | (rcases hm with rfl | rfl <;> simp only [HeldMachine.step, hub, Res.bind_ub, bind_ub_ub (M.opened_ne_tmo _)])
      simp only [HeldMachine.exec, this, Res.bind_ub]
    | hold _ _ | first _ _ | last _ _ | gfirst _ _ | glast _ _ =>
      obtain rfl : pl = _ := by simpa [reads] using hm
      simp only [HeldMachine.exec, hub, Res.bind_ub]
    | assign _ _ | next _ | prev _ | get _ | same _ _ | gassign _ _ | gnext _ | gget _ | gsame _ _ | gstart _ _ | gstop _ _
    | mfirst _ _ | mlast _ _ | massign _ _ | mnext _ | mprev _ | mget _ | msame _ _ | mset _ _ =>
      simp [reads] at hm
  · have hub := r.it_ub hn
    cases st <;> simp only [usesIts, List.mem_cons, List.not_mem_nil, or_false] at hm
    all_goals first
      | (subst hm; simp only [HeldMachine.exec, hub, Res.bind_ub]; done)
      | (rcases hm with rfl | rfl <;> simp only [HeldMachine.exec, hub, Res.bind_ub, bind_ub_ub (M.it_ne_tmo _)])
  · have hub := r.git_ub hn
    cases st <;> simp only [usesGits, List.mem_cons, List.not_mem_nil, or_false] at hm
    all_goals first
      | (subst hm; simp only [HeldMachine.exec, hub, Res.bind_ub]; done)
      | (rcases hm with rfl | rfl <;> simp only [HeldMachine.exec, hub, Res.bind_ub, bind_ub_ub (M.git_ne_tmo _)])
  · have hub := r.mit_ub hn
    cases st <;> simp only [usesMits, List.mem_cons, List.not_mem_nil, or_false] at hm
    all_goals first
      | (subst hm; simp only [HeldMachine.exec, hub, Res.bind_ub]; done)
      | (rcases hm with rfl | rfl <;> simp only [HeldMachine.exec, hub, Res.bind_ub, bind_ub_ub (M.mit_ne_tmo _)])
  · have h1 := r.getIt hx
    have h2 := r.getIt hy
    have hne' : y.string ≠ x.string := fun e => hne e.symm
    cases st <;> simp only [usesIts, List.mem_cons, List.not_mem_nil, or_false] at hm hm'
    all_goals first
      | (subst hm; subst hm'; rw [hx] at hy; cases hy; exact absurd rfl hne; done)
      | (rcases hm with rfl | rfl <;> rcases hm' with rfl | rfl
         all_goals first
          | (rw [hx] at hy; cases hy; exact absurd rfl hne)
          | simp only [HeldMachine.exec, h1, h2, Res.bind_ok, if_neg hne, if_neg hne'])
  · have h1 := r.getGit hx
    have h2 := r.getGit hy
    have hne' : y.string ≠ x.string := fun e => hne e.symm
    cases st <;> simp only [usesGits, List.mem_cons, List.not_mem_nil, or_false] at hm hm'
    all_goals first
      | (subst hm; subst hm'; rw [hx] at hy; cases hy; exact absurd rfl hne; done)
      | (rcases hm with rfl | rfl <;> rcases hm' with rfl | rfl
         all_goals first
          | (rw [hx] at hy; cases hy; exact absurd rfl hne)
          | simp only [HeldMachine.exec, h1, h2, Res.bind_ok, if_neg hne, if_neg hne'])
  · obtain ⟨p, h1, _⟩ := r.getMit hx
    obtain ⟨q, h2, _⟩ := r.getMit hy
    have hne' : y.string ≠ x.string := fun e => hne e.symm
    cases st <;> simp only [usesMits, List.mem_cons, List.not_mem_nil, or_false] at hm hm'
    all_goals first
      | (subst hm; subst hm'; rw [hx] at hy; cases hy; exact absurd rfl hne; done)
      | (rcases hm with rfl | rfl <;> rcases hm' with rfl | rfl
         all_goals first
          | (rw [hx] at hy; cases hy; exact absurd rfl hne)
          | simp only [HeldMachine.exec, h1, h2, Res.bind_ok, if_neg hne, if_neg hne'])

theorem run_held_ub (sort : SortFn) (fuel : Nat) (client : HeldClient) (st : HeldStmt) (n : Nat) :
    ∀ (M M' : HeldMachine) (os os' : List Obs), HeldMachine.run sort fuel client n M os = .ok (M', os') →
    client os' = some st → M'.exec sort fuel st = .ub → HeldMachine.run sort fuel client (n + 1) M os = .ub := by
  induction n with
  | zero =>
    intro M M' os os' h hc he
    simp only [HeldMachine.run, Res.ok.injEq, Prod.mk.injEq] at h
    obtain ⟨rfl, rfl⟩ := h
    simp only [HeldMachine.run, hc, he, Res.bind_ub]
  | succ n ih =>
    intro M M' os os' h hc he
    rw [HeldMachine.run] at h ⊢
    cases hc2 : client os with
    | none =>
      rw [hc2] at h
      simp only [Res.ok.injEq, Prod.mk.injEq] at h
      rw [h.2, hc] at hc2; cases hc2
    | some st2 =>
      rw [hc2] at h
      simp only at h ⊢
      cases hx : M.exec sort fuel st2 with
      | ok y => rw [hx] at h; rw [Res.bind_ok] at h ⊢; exact ih _ _ _ _ h hc he
      | ub => rw [Res.bind_ub]
      | tmo => rw [hx] at h; cases h

/-- C78, the other side: once a program that has behaved so far reads through a view or an iterator without a valid
value - never set, or its string has been assigned to, cleared or appended to since - or uses iterators of two strings
together, its behaviour is undefined, whatever the encodings. -/
theorem C78_dangling_undefined (τ : Nat → Spec.Kind) (sort : SortFn) (hs : ConformingSort sort) (client : HeldClient) (n : Nat)
    (σ : Nat → List Nat) (hσ : ∀ k, ∀ c ∈ σ k, c < 2 ^ 31)
    (ha : (libraryData sort).MayRunHeld τ client n (HeldWorld.start σ) []) (w : HeldWorld) (os : List Obs)
    (hr : (libraryData sort).RunsHeld client n (HeldWorld.start σ) [] w os) (st : HeldStmt) (hc : client os = some st)
    (hu : Dangling w st) :
    ∃ N, ∀ fuel, N ≤ fuel →
      HeldMachine.run sort fuel client (n + 1) (HeldMachine.start fun s => Spec.stored (τ s) (σ s)) [] = .ub := by
  obtain ⟨w', M, os', N, h1, r, h2⟩ := run_held hs client n _ _ [] (held_start τ σ hσ) ha
  obtain ⟨rfl, rfl⟩ := C78_deterministic sort client n _ _ _ _ _ _ h1 hr
  exact ⟨N, fun fuel hf => run_held_ub sort fuel client st n _ _ _ _ (h2 fuel hf) hc (exec_dangling r sort st hu fuel)⟩

/-- One statement of the specification as a computation. -/
def doesHeldF (sort : SortFn) (w : HeldWorld) : HeldStmt → HeldWorld × Obs
  | .op op => match w.plain op with
    | some op' => (w.stored (idealVF sort w.strings op').1 (storesIn op), (idealVF sort w.strings op').2)
    | none => (w, .none)
  | .hold v src => match w.source src with
    | some x => (w.setView v (slice w.strings x), .none)
    | none => (w, .none)
  | .first i src => match w.source src with
    | some x => (w.setIt i ⟨(slice w.strings x).string, (slice w.strings x).first⟩, .none)
    | none => (w, .none)
  | .last i src => match w.source src with
    | some x => (w.setIt i ⟨(slice w.strings x).string, (slice w.strings x).last⟩, .none)
    | none => (w, .none)
  | .assign i j => match w.its j with
    | some x => (w.setIt i x, .none)
    | none => (w, .none)
  | .next i => match w.its i with
    | some x => (w.setIt i ⟨x.string, x.index + 1⟩, .none)
    | none => (w, .none)
  | .prev i => match w.its i with
    | some x => (w.setIt i ⟨x.string, x.index - 1⟩, .none)
    | none => (w, .none)
  | .get i => match w.its i with
    | some x => (w, .codepoints [Int.ofNat ((w.strings x.string)[x.index]?.getD 0)])
    | none => (w, .none)
  | .same i j => match w.its i, w.its j with
    | some x, some y => (w, .bool (x.index == y.index))
    | _, _ => (w, .none)
  | .gfirst g src => match w.source src with
    | some x => (w.setGit g ⟨(slice w.strings x).string, (slice w.strings x).first, (slice w.strings x).last,
        (slice w.strings x).first, (slice w.strings x).first + firstLen (ints (text w.strings x))⟩, .none)
    | none => (w, .none)
  | .glast g src => match w.source src with
    | some x => (w.setGit g ⟨(slice w.strings x).string, (slice w.strings x).first, (slice w.strings x).last,
        (slice w.strings x).last, (slice w.strings x).last⟩, .none)
    | none => (w, .none)
  | .gassign g h => match w.gits h with
    | some x => (w.setGit g x, .none)
    | none => (w, .none)
  | .gnext g => match w.gits g with
    | some x => (w.setGit g ⟨x.string, x.start, x.stop, x.last,
        x.last + firstLen (ints (((w.strings x.string).take x.stop).drop x.last))⟩, .none)
    | none => (w, .none)
  | .gget g => match w.gits g with
    | some x => (w, .codepoints (ints (((w.strings x.string).take x.last).drop x.first)))
    | none => (w, .none)
  | .gsame g h => match w.gits g, w.gits h with
    | some x, some y => (w, .bool (sameB x y))
    | _, _ => (w, .none)
  | .gstart i g => match w.gits g with
    | some x => (w.setIt i ⟨x.string, x.first⟩, .none)
    | none => (w, .none)
  | .gstop i g => match w.gits g with
    | some x => (w.setIt i ⟨x.string, x.last⟩, .none)
    | none => (w, .none)
  | .mfirst m s => (w.setMit m ⟨s, 0, false⟩, .none)
  | .mlast m s => (w.setMit m ⟨s, (w.strings s).length, false⟩, .none)
  | .massign m n => match w.mits n with
    | some x => (w.setMit m x, .none)
    | none => (w, .none)
  | .mnext m => match w.mits m with
    | some x => (w.setMit m ⟨x.string, x.index + 1, false⟩, .none)
    | none => (w, .none)
  | .mprev m => match w.mits m with
    | some x => (w.setMit m ⟨x.string, x.index - 1, false⟩, .none)
    | none => (w, .none)
  | .mget m => match w.mits m with
    | some x => (w, .codepoints [Int.ofNat ((w.strings x.string)[x.index]?.getD 0)])
    | none => (w, .none)
  | .msame m n => match w.mits m, w.mits n with
    | some x, some y => (w, .bool (x.index == y.index))
    | _, _ => (w, .none)
  | .mset m c => match w.mits m with
    | some x => ((w.stored (idealVF sort w.strings (.write x.string x.index c)).1 none).setMit m ⟨x.string, x.index, true⟩,
        (idealVF sort w.strings (.write x.string x.index c)).2)
    | none => (w, .none)

theorem doesHeldF_spec (sort : SortFn) (w : HeldWorld) (st : HeldStmt) (ha : (libraryData sort).MayHeld τ w st) :
    (libraryData sort).DoesHeld w st (doesHeldF sort w st).1 (doesHeldF sort w st).2 := by
  cases st with
  | op op =>
    obtain ⟨⟨op', hp, hperm⟩, _⟩ := ha
    simp only [doesHeldF, hp]
    exact ⟨op', _, hp, idealVF_spec sort τ w.strings op' hperm, rfl⟩
  | hold v pl => obtain ⟨⟨x, hx, _⟩, _⟩ := ha; simp only [doesHeldF, hx]; exact ⟨x, hx, rfl, rfl⟩
  | first i pl => obtain ⟨⟨x, hx, _⟩, _⟩ := ha; simp only [doesHeldF, hx]; exact ⟨x, hx, rfl, rfl⟩
  | last i pl => obtain ⟨⟨x, hx, _⟩, _⟩ := ha; simp only [doesHeldF, hx]; exact ⟨x, hx, rfl, rfl⟩
  | assign i j => obtain ⟨x, hx⟩ := ha; simp only [doesHeldF, hx]; exact ⟨x, hx, rfl, rfl⟩
  | next i => obtain ⟨x, hx, _⟩ := ha; simp only [doesHeldF, hx]; exact ⟨x, hx, rfl, rfl⟩
  | prev i => obtain ⟨x, hx, _⟩ := ha; simp only [doesHeldF, hx]; exact ⟨x, hx, rfl, rfl⟩
  | get i =>
    obtain ⟨x, hx, h⟩ := ha
    simp only [doesHeldF, hx, List.getElem?_eq_getElem h, Option.getD_some]
    exact ⟨x, _, hx, List.getElem?_eq_getElem h, rfl, rfl⟩
  | same i j => obtain ⟨x, y, hx, hy, _⟩ := ha; simp only [doesHeldF, hx, hy]; exact ⟨x, y, hx, hy, rfl, rfl⟩
  | gfirst g pl => obtain ⟨⟨x, hx, _⟩, _⟩ := ha; simp only [doesHeldF, hx]; exact ⟨x, _, hx, leading_exists sort _, rfl, rfl⟩
  | glast g pl => obtain ⟨⟨x, hx, _⟩, _⟩ := ha; simp only [doesHeldF, hx]; exact ⟨x, hx, rfl, rfl⟩
  | gassign g h => obtain ⟨x, hx⟩ := ha; simp only [doesHeldF, hx]; exact ⟨x, hx, rfl, rfl⟩
  | gnext g => obtain ⟨x, hx⟩ := ha; simp only [doesHeldF, hx]; exact ⟨x, _, hx, leading_exists sort _, rfl, rfl⟩
  | gget g => obtain ⟨x, hx⟩ := ha; simp only [doesHeldF, hx]; exact ⟨x, hx, rfl, rfl⟩
  | gsame g h =>
    obtain ⟨x, y, hx, hy, _⟩ := ha; simp only [doesHeldF, hx, hy]; exact ⟨x, y, _, hx, hy, sameB_iff x y, rfl, rfl⟩
  | gstart i g => obtain ⟨x, hx⟩ := ha; simp only [doesHeldF, hx]; exact ⟨x, hx, rfl, rfl⟩
  | gstop i g => obtain ⟨x, hx⟩ := ha; simp only [doesHeldF, hx]; exact ⟨x, hx, rfl, rfl⟩
  | mfirst m s => exact ⟨rfl, rfl⟩
  | mlast m s => exact ⟨rfl, rfl⟩
  | massign m n => obtain ⟨x, hx⟩ := ha; simp only [doesHeldF, hx]; exact ⟨x, hx, rfl, rfl⟩
  | mnext m => obtain ⟨x, hx, _⟩ := ha; simp only [doesHeldF, hx]; exact ⟨x, hx, rfl, rfl⟩
  | mprev m => obtain ⟨x, hx, _⟩ := ha; simp only [doesHeldF, hx]; exact ⟨x, hx, rfl, rfl⟩
  | mget m =>
    obtain ⟨x, hx, h⟩ := ha
    simp only [doesHeldF, hx, List.getElem?_eq_getElem h, Option.getD_some]
    exact ⟨x, _, hx, List.getElem?_eq_getElem h, rfl, rfl⟩
  | msame m n => obtain ⟨x, y, hx, hy, _⟩ := ha; simp only [doesHeldF, hx, hy]; exact ⟨x, y, hx, hy, rfl, rfl⟩
  | mset m c =>
    obtain ⟨x, hx, hperm, _⟩ := ha
    simp only [doesHeldF, hx]
    exact ⟨x, _, hx, idealVF_spec sort τ w.strings _ hperm, rfl⟩

def fitsB (w : HeldWorld) : Place → Bool
  | .part v _ j => match w.views v with
    | some x => decide (x.first + j ≤ x.last)
    | none => true
  | _ => true

theorem fitsB_iff (w : HeldWorld) (pl : Place) : fitsB w pl = true ↔ w.Fits pl := by
  cases pl with
  | part v i j => simp only [fitsB, HeldWorld.Fits]; split <;> simp_all
  | whole _ | view _ _ _ | held _ | between _ _ => simp [fitsB, HeldWorld.Fits]

def placeB (w : HeldWorld) (pl : Place) : Bool :=
  (match w.source pl with | some x => decide (Spec.Inside w.strings x) | none => false) && fitsB w pl

theorem placeB_iff (w : HeldWorld) (pl : Place) :
    placeB w pl = true ↔ (∃ x, w.source pl = some x ∧ Spec.Inside w.strings x) ∧ w.Fits pl := by
  simp only [placeB, Bool.and_eq_true, fitsB_iff]
  cases w.source pl <;> simp

/-- `MayHeld` as a computation. -/
def mayHeldB (sort : SortFn) (τ : Nat → Spec.Kind) (w : HeldWorld) : HeldStmt → Bool
  | .op op => (match w.plain op with | some op' => permittedB sort τ w.strings op' | none => false) &&
      (reads (.op op)).all (fitsB w)
  | .hold _ src | .first _ src | .last _ src | .gfirst _ src => placeB w src
  | .glast _ src => (match w.source src with
    | some x => decide (Spec.Inside w.strings x) && delimitedB w.strings x
    | none => false) && fitsB w src
  | .assign _ j => (w.its j).isSome
  | .next i | .get i => match w.its i with
    | some x => decide (x.index < (w.strings x.string).length)
    | none => false
  | .prev i => match w.its i with
    | some x => decide (0 < x.index)
    | none => false
  | .same i j => match w.its i, w.its j with
    | some x, some y => decide (x.string = y.string)
    | _, _ => false
  | .gassign _ h => (w.gits h).isSome
  | .gnext g | .gget g | .gstart _ g | .gstop _ g => (w.gits g).isSome
  | .gsame g h => match w.gits g, w.gits h with
    | some x, some y => decide (x.string = y.string) && decide (x.stop = y.stop)
    | _, _ => false
  | .mfirst _ _ | .mlast _ _ => true
  | .massign _ n => (w.mits n).isSome
  | .mnext m | .mget m => match w.mits m with
    | some x => decide (x.index < (w.strings x.string).length)
    | none => false
  | .mprev m => match w.mits m with
    | some x => decide (0 < x.index)
    | none => false
  | .msame m n => match w.mits m, w.mits n with
    | some x, some y => decide (x.string = y.string)
    | _, _ => false
  | .mset m c => match w.mits m with
    | some x => permittedB sort τ w.strings (.write x.string x.index c) &&
        match τ x.string, x.written, (w.strings x.string)[x.index]? with
        | .utf8, true, some old => decide ((encode old).length = 1)
        | _, _, _ => true
    | none => false

theorem mayHeldB_iff (sort : SortFn) (τ : Nat → Spec.Kind) (w : HeldWorld) (st : HeldStmt) :
    mayHeldB sort τ w st = true ↔ (libraryData sort).MayHeld τ w st := by
  cases st with
  | op op =>
    simp only [mayHeldB, Bool.and_eq_true, List.all_eq_true, fitsB_iff, Ucd.MayHeld]
    refine and_congr ?_ Iff.rfl
    cases w.plain op with
    | none => simp
    | some op' => simp [permittedB_iff]
  | hold | first | last | gfirst => exact placeB_iff w _
  | glast g pl =>
    simp only [mayHeldB, Ucd.MayHeld, Bool.and_eq_true, fitsB_iff]
    refine and_congr ?_ Iff.rfl
    cases w.source pl with
    | none => simp
    | some x => simp [delimitedB_iff sort]
  | gassign | gnext | gget | gstart | gstop => simp only [mayHeldB, Ucd.MayHeld, Option.isSome_iff_exists]
  | gsame i j => simp only [mayHeldB, Ucd.MayHeld]; cases w.gits i <;> cases w.gits j <;> simp
  | assign i j => simp only [mayHeldB, Ucd.MayHeld, Option.isSome_iff_exists]
  | next i | get i | prev i => simp only [mayHeldB, Ucd.MayHeld]; cases w.its i <;> simp
  | same i j => simp only [mayHeldB, Ucd.MayHeld]; cases w.its i <;> cases w.its j <;> simp
  | mfirst | mlast => simp [mayHeldB, Ucd.MayHeld]
  | massign => simp only [mayHeldB, Ucd.MayHeld, Option.isSome_iff_exists]
  | mnext i | mget i | mprev i => simp only [mayHeldB, Ucd.MayHeld]; cases w.mits i <;> simp
  | msame i j => simp only [mayHeldB, Ucd.MayHeld]; cases w.mits i <;> cases w.mits j <;> simp
  | mset m c =>
    simp only [mayHeldB, Ucd.MayHeld]
    cases w.mits m with
    | none => simp
    | some x =>
      simp only [Option.some.injEq, Bool.and_eq_true, permittedB_iff, exists_eq_left']
      refine and_congr Iff.rfl ?_
      cases τ x.string <;> cases x.written <;> cases (w.strings x.string)[x.index]? <;> simp

def mayRunHeldB (sort : SortFn) (τ : Nat → Spec.Kind) (client : HeldClient) : Nat → HeldWorld → List Obs → Bool
  | 0, _, _ => true
  | n + 1, w, os => match client os with
    | none => true
    | some st => mayHeldB sort τ w st &&
        mayRunHeldB sort τ client n (doesHeldF sort w st).1 (os ++ [(doesHeldF sort w st).2])

/-- C78: whether a program is allowed can be computed along its ideal run. -/
theorem C78_allowed_checkable (sort : SortFn) (τ : Nat → Spec.Kind) (client : HeldClient) (n : Nat) (w : HeldWorld)
    (os : List Obs) :
    mayRunHeldB sort τ client n w os = true ↔ (libraryData sort).MayRunHeld τ client n w os := by
  induction n generalizing w os with
  | zero => simp [mayRunHeldB, Ucd.MayRunHeld]
  | succ n ih =>
    simp only [mayRunHeldB, Ucd.MayRunHeld]
    cases hc : client os with
    | none => simp
    | some st =>
      simp only [Bool.and_eq_true, mayHeldB_iff, ih, Option.some.injEq, forall_eq']
      constructor
      · rintro ⟨h1, h2⟩
        refine ⟨h1, fun w1 o hd => ?_⟩
        obtain ⟨rfl, rfl⟩ := does_held_unique sort w st hd (doesHeldF_spec sort w st h1)
        exact h2
      · rintro ⟨h1, h2⟩
        exact ⟨h1, h2 _ _ (doesHeldF_spec sort w st h1)⟩

/-- Non-vacuity: string 0 is UTF-8 and gets "é€ab" (with a combining accent), string 1 is utf32ne. View 0 is "€ab", view 1
the part "ab" of it. Writing "X" over "a" in the string shows in both views, which stay valid. Iterators walk through a
view; view 2 lies between two iterators. At last string 1, not string 0, is appended to. -/
def heldSample : List HeldStmt :=
  [.op (.appendCps 0 [0x65, 0x301, 0x20AC, 0x61, 0x62]), .hold 0 (.view 0 2 5), .hold 1 (.part 0 1 3),
   .op (.read (.held 1)), .op (.write 0 3 0x58), .op (.read (.held 0)), .op (.equal (.held 1) (.part 0 1 3)),
   .first 0 (.held 0), .last 1 (.whole 0), .next 0, .get 0, .next 0, .next 0, .same 0 1, .prev 0, .get 0,
   .first 2 (.whole 0), .hold 2 (.between 2 0), .op (.readBack (.held 2)), .op (.convert 1 (.held 2)),
   .op (.normalize .C 1 (.between 2 1)), .op (.read (.whole 1)), .op (.readGraphemes (.part 2 0 3)),
   .op (.append 2 (.held 1)), .assign 3 2, .get 3, .op (.less (.held 1) (.whole 2)), .op (.countIf (.held 2) (fun c => 127 < c)),
   .op (.transform 2 (fun c => c + 1)), .op (.read (.whole 2)), .op (.appendGraphemes 2 (.held 1) 0 1),
   .op (.read (.whole 2))]

/-- The sample as a program that does not look at what it prints. -/
def heldClient : HeldClient := fun os => heldSample[os.length]?

/-- What it prints. -/
def heldOutput : List Obs :=
  [.none, .none, .none, .codepoints [0x61, 0x62], .none, .codepoints [0x20AC, 0x58, 0x62], .bool true,
   .none, .none, .none, .codepoints [0x58], .none, .none, .bool true, .none, .codepoints [0x62],
   .none, .none, .codepoints [0x58, 0x20AC, 0x301, 0x65], .none,
   .number 4, .codepoints [0x65, 0x301, 0x20AC, 0x58, 0xE9, 0x20AC, 0x58, 0x62], .graphemes [[0x65, 0x301], [0x20AC]],
   .none, .none, .codepoints [0x65], .bool false, .number 2, .none, .codepoints [0x59, 0x63], .none,
   .codepoints [0x59, 0x63, 0x58]]

theorem heldSample_allowed :
    (libraryData insSort).MayRunHeld sampleKinds heldClient 40 (HeldWorld.start fun _ => []) [] ∧
    (libraryData insSort).MayRunHeld sampleKinds' heldClient 40 (HeldWorld.start fun _ => []) [] :=
  ⟨(C78_allowed_checkable insSort sampleKinds heldClient 40 _ _).mp (by decide +kernel),
   (C78_allowed_checkable insSort sampleKinds' heldClient 40 _ _).mp (by decide +kernel)⟩

example : (match HeldMachine.run insSort 20 heldClient 40
      (HeldMachine.start fun s => Spec.stored (sampleKinds s) []) [] with | .ok (_, os) => os | _ => []) = heldOutput ∧
    (match HeldMachine.run insSort 20 heldClient 40
      (HeldMachine.start fun s => Spec.stored (sampleKinds' s) []) [] with | .ok (_, os) => os | _ => []) = heldOutput := by
  decide +kernel

example := C78_programs sampleKinds insSort insSort_stable.1 heldClient 40 (fun _ => []) (by simp) heldSample_allowed.1
example := C78_encodings_irrelevant sampleKinds sampleKinds' insSort insSort_stable.1 heldClient 40 (fun _ => []) (by simp)
  heldSample_allowed.1 heldSample_allowed.2

/-- Instance of the other side: a view of string 0 is read after string 0 has been appended to. -/
def danglingSample : HeldClient := fun os =>
  ([.op (.appendCps 0 [0x61, 0x62]), .hold 0 (.whole 0), .op (.appendCps 0 [0x63]), .op (.read (.held 0))] : List HeldStmt)[os.length]?

theorem danglingSample_runs : ∃ w os,
    (libraryData insSort).RunsHeld danglingSample 3 (HeldWorld.start fun _ => []) [] w os ∧ os = [.none, .none, .none] ∧
    w.views 0 = none ∧ w.strings 0 = [0x61, 0x62, 0x63] := by
  have step := fun w st h => doesHeldF_spec (τ := sampleKinds) insSort w st ((mayHeldB_iff insSort sampleKinds w st).mp h)
  refine ⟨_, _, .step 2 _ [] _ _ _ _ _ rfl (step _ _ (by decide +kernel)) (.step 1 _ _ _ _ _ _ _ rfl (step _ _ (by decide +kernel))
    (.step 0 _ _ _ _ _ _ _ rfl (step _ _ (by decide +kernel)) (.limit _ _))), rfl, by decide +kernel, by decide +kernel⟩

example : ∃ N, ∀ fuel, N ≤ fuel → HeldMachine.run insSort fuel danglingSample 4
    (HeldMachine.start fun s => Spec.stored (sampleKinds s) []) [] = .ub := by
  obtain ⟨w, os, h, rfl, hv, _⟩ := danglingSample_runs
  exact C78_dangling_undefined sampleKinds insSort insSort_stable.1 danglingSample 3 (fun _ => []) (by simp)
    ((C78_allowed_checkable insSort sampleKinds danglingSample 3 _ _).mp (by decide +kernel)) w _ h (.op (.read (.held 0))) rfl
    (.inl ⟨.held 0, by simp [reads], by simp [HeldWorld.source, hv]⟩)

/-- A program with a loop: it walks backwards through the view variable 0 and prints each codepoint, until its iterator
meets the beginning of the view. -/
def backwards : HeldClient := fun os =>
  match os with
  | [] => some (.op (.appendCps 0 [0x20AC, 0x61, 0xE9, 0x62]))
  | [_] => some (.hold 0 (.view 0 1 3))
  | [_, _] => some (.first 0 (.held 0))
  | [_, _, _] => some (.last 1 (.held 0))
  | _ => match os.getLast? with
    | some (.bool true) => none
    | some (.bool false) => some (.prev 1)
    | some (.codepoints _) => some (.same 0 1)
    | _ => if os.length = 4 then some (.same 0 1) else some (.get 1)

example : (libraryData insSort).MayRunHeld sampleKinds backwards 100 (HeldWorld.start fun _ => []) [] ∧
    (match HeldMachine.run insSort 20 backwards 100
      (HeldMachine.start fun s => Spec.stored (sampleKinds s) []) [] with | .ok (_, os) => os | _ => []) =
    [.none, .none, .none, .none, .bool false, .none, .codepoints [0xE9], .bool false, .none, .codepoints [0x61], .bool true] :=
  ⟨(C78_allowed_checkable insSort sampleKinds backwards 100 _ _).mp (by decide +kernel), by decide +kernel⟩

/-- A program with grapheme iterators: string 0 is "aé€b" (the accent by itself), view 0 lacks the "a" and the "b". -/
def sweepSample : List HeldStmt :=
  [.op (.appendCps 0 [0x61, 0x65, 0x301, 0x20AC, 0x62]), .hold 0 (.view 0 1 4), .gfirst 0 (.held 0), .glast 1 (.held 0),
   .gget 0, .gsame 0 1, .gassign 2 0, .gnext 0, .gget 0, .gsame 0 2, .gstart 0 2, .gstop 1 2, .get 0, .get 1,
   .op (.read (.between 0 1)), .gnext 0, .gsame 0 1, .gget 0, .gnext 0, .gsame 0 1, .gstart 2 0, .get 2, .gget 2,
   .op (.write 0 1 0x45), .gget 2, .op (.convert 1 (.held 0)), .gget 2]

/-- What it prints. -/
def sweepOutput : List Obs :=
  [.none, .none, .none, .none, .codepoints [0x65, 0x301], .bool false, .none, .none, .codepoints [0x20AC], .bool false,
   .none, .none, .codepoints [0x65], .codepoints [0x20AC], .codepoints [0x65, 0x301], .none, .bool true, .codepoints [],
   .none, .bool true, .none, .codepoints [0x62], .codepoints [0x65, 0x301], .none, .codepoints [0x45, 0x301], .none,
   .codepoints [0x45, 0x301]]

example : (libraryData insSort).MayRunHeld sampleKinds (fun os => sweepSample[os.length]?) 40 (HeldWorld.start fun _ => []) [] ∧
    (match HeldMachine.run insSort 20 (fun os => sweepSample[os.length]?) 40
      (HeldMachine.start fun s => Spec.stored (sampleKinds s) []) [] with | .ok (_, os) => os | _ => []) = sweepOutput :=
  ⟨(C78_allowed_checkable insSort sampleKinds _ 40 _ _).mp (by decide +kernel), by decide +kernel⟩

/-- A program with a loop over the graphemes of a view: each is appended to string 3 behind a ".". -/
def sweepLoop : HeldClient := fun os =>
  let body := os.length - 4
  match os with
  | [] => some (.op (.appendCps 1 [0x20, 0x65, 0x301, 0x20AC, 0x1F1E6, 0x1F1E7, 0x20]))
  | [_] => some (.hold 0 (.view 1 1 6))
  | [_, _] => some (.gfirst 0 (.held 0))
  | [_, _, _] => some (.glast 1 (.held 0))
  | _ => match os.getLast? with
    | some (.bool true) => some (.op (.read (.whole 3)))
    | some (.codepoints _) => none
    | _ => match body % 6 with
      | 0 => some (.gsame 0 1)
      | 1 => some (.gstart 0 0)
      | 2 => some (.gstop 1 0)
      | 3 => some (.op (.appendCps 3 [0x2E]))
      | 4 => some (.op (.append 3 (.between 0 1)))
      | _ => some (.gnext 0)

example : (libraryData insSort).MayRunHeld sampleKinds sweepLoop 100 (HeldWorld.start fun _ => []) [] ∧
    (match HeldMachine.run insSort 20 sweepLoop 100
      (HeldMachine.start fun s => Spec.stored (sampleKinds s) []) [] with | .ok (_, os) => os.getLast? | _ => none) =
    some (.codepoints [0x2E, 0x65, 0x301, 0x2E, 0x20AC, 0x2E, 0x1F1E6, 0x1F1E7]) :=
  ⟨(C78_allowed_checkable insSort sampleKinds sweepLoop 100 _ _).mp (by decide +kernel), by decide +kernel⟩

/-- A program with mutable iterators: string 0 is UTF-8 and holds "aé€b". Iterator 0 goes through it and writes; a const
iterator, a view and iterator 1 see what it wrote. -/
def penSample : List HeldStmt :=
  [.op (.appendCps 0 [0x61, 0xE9, 0x20AC, 0x62]), .hold 0 (.view 0 1 4), .first 0 (.view 0 2 3), .mfirst 0 0, .mlast 1 0,
   .mset 0 0x41, .mget 0, .mset 0 0x42, .mnext 0, .mset 0 0xC9, .mget 0, .massign 2 0, .msame 0 2, .mnext 0, .msame 0 2,
   .mset 0 0x20AD, .get 0, .op (.read (.held 0)), .mprev 0, .mset 0 0xE8, .mget 2, .msame 2 0, .mprev 1, .mget 1, .mnext 2,
   .mnext 2, .msame 1 2, .mset 1 0x7A, .mget 2, .op (.read (.held 0)), .op (.clear 1), .mprev 2, .mget 2, .op (.read (.whole 0))]

/-- What it prints. -/
def penOutput : List Obs :=
  [.none, .none, .none, .none, .none, .none, .codepoints [0x41], .none, .none, .none, .codepoints [0xC9], .none, .bool true,
   .none, .bool false, .none, .codepoints [0x20AD], .codepoints [0xC9, 0x20AD, 0x62], .none, .none, .codepoints [0xE8],
   .bool true, .none, .codepoints [0x62], .none, .none, .bool true, .none, .codepoints [0x7A],
   .codepoints [0xE8, 0x20AD, 0x7A], .none, .none, .codepoints [0x20AD], .codepoints [0x42, 0xE8, 0x20AD, 0x7A]]

theorem penSample_allowed (τ : Nat → Spec.Kind) (h : τ = sampleKinds ∨ τ = sampleKinds') :
    (libraryData insSort).MayRunHeld τ (fun os => penSample[os.length]?) 40 (HeldWorld.start fun _ => []) [] := by
  rcases h with rfl | rfl <;> exact (C78_allowed_checkable insSort _ _ 40 _ _).mp (by decide +kernel)

example : (match HeldMachine.run insSort 20 (fun os => penSample[os.length]?) 40
      (HeldMachine.start fun s => Spec.stored (sampleKinds s) []) [] with | .ok (_, os) => os | _ => []) = penOutput ∧
    (match HeldMachine.run insSort 20 (fun os => penSample[os.length]?) 40
      (HeldMachine.start fun s => Spec.stored (sampleKinds' s) []) [] with | .ok (_, os) => os | _ => []) = penOutput := by
  decide +kernel

example := C78_programs sampleKinds insSort insSort_stable.1 _ 40 (fun _ => []) (by simp) (penSample_allowed _ (.inl rfl))
example := C78_encodings_irrelevant sampleKinds sampleKinds' insSort insSort_stable.1 _ 40 (fun _ => []) (by simp)
  (penSample_allowed _ (.inl rfl)) (penSample_allowed _ (.inr rfl))

/-- A loop that replaces in place: every "é" of a UTF-8 string becomes "è". -/
def replaceLoop : HeldClient := fun os =>
  match os with
  | [] => some (.op (.appendCps 0 [0xE9, 0x61, 0xE9, 0x20AC]))
  | [_] => some (.mfirst 0 0)
  | [_, _] => some (.mlast 1 0)
  | [_, _, _] => some (.msame 0 1)
  | _ => match os.reverse with
    | .bool true :: _ => some (.op (.read (.whole 0)))
    | .bool false :: _ => some (.mget 0)
    | .codepoints [c] :: _ => if c = 0xE9 then some (.mset 0 0xE8) else some (.mnext 0)
    | .codepoints _ :: _ => none
    | .none :: .codepoints [c] :: _ => if c = 0xE9 then some (.mnext 0) else some (.msame 0 1)
    | _ => some (.msame 0 1)

example : (libraryData insSort).MayRunHeld sampleKinds replaceLoop 100 (HeldWorld.start fun _ => []) [] ∧
    (match HeldMachine.run insSort 20 replaceLoop 100
      (HeldMachine.start fun s => Spec.stored (sampleKinds s) []) [] with | .ok (_, os) => os.getLast? | _ => none) =
    some (.codepoints [0xE8, 0x61, 0xE8, 0x20AC]) :=
  ⟨(C78_allowed_checkable insSort sampleKinds replaceLoop 100 _ _).mp (by decide +kernel), by decide +kernel⟩

/-- C78: what the restrictions are for. A view that ends before it begins, `++` past the terminator, `--` at the beginning, and
iterators of two strings are undefined; overwriting a codepoint of a UTF-8 string by a longer one, which is not allowed,
changes what a view that begins later shows. A grapheme iterator at its end equals one at the first grapheme of a view that
begins there, and where the string has no boundary the end of the graphemes is not empty. Writing twice through a mutable
iterator without moving it in between spoils a UTF-8 string, for the iterator is left at the end of what it wrote. -/
theorem C78_restrictions_needed :
    let run := fun (sts : List HeldStmt) => HeldMachine.run insSort 20 (fun os => sts[os.length]?) 9 (HeldMachine.start
      (fun n => Spec.stored (sampleKinds n) (if n = 0 then [0x61, 0x62, 0xE9, 0x63] else if n = 2 then [0x61] else []))) []
    let prints := fun sts => (match run sts with | .ok (_, os) => some os | _ => none)
    let undefined : List HeldStmt → Bool := fun sts => (match run sts with | .ub => true | _ => false)
    undefined [.hold 0 (.view 0 2 1)] ∧ undefined [.last 0 (.whole 0), .next 0, .next 0] ∧
    undefined [.first 0 (.whole 0), .prev 0] ∧
    undefined [.first 0 (.whole 0), .last 1 (.whole 2), .same 0 1] ∧
    undefined [.first 0 (.whole 0), .last 1 (.whole 2), .hold 0 (.between 0 1)] ∧
    undefined [.hold 0 (.whole 0), .op (.clear 0), .op (.countIf (.held 0) fun _ => true)] ∧
    undefined [.op (.readBack (.held 0))] ∧
    undefined [.gfirst 0 (.whole 0), .op (.clear 0), .gget 0] ∧
    undefined [.gfirst 0 (.whole 0), .gfirst 1 (.whole 2), .gsame 0 1] ∧
    undefined [.mfirst 0 0, .op (.appendCps 0 [0x61]), .mset 0 0x62] ∧ undefined [.mset 0 0x62] ∧
    undefined [.mfirst 0 0, .mfirst 1 2, .msame 0 1] ∧ undefined [.mfirst 0 0, .mprev 0] ∧
    prints [.mfirst 0 0, .mnext 0, .mnext 0, .mset 0 0xE8, .mset 0 0xEA, .op (.read (.whole 0))] ≠
      some [.none, .none, .none, .none, .none, .codepoints [0x61, 0x62, 0xEA, 0x63]] ∧
    prints [.mfirst 0 0, .mnext 0, .mset 0 0x78, .mset 0 0x79, .op (.read (.whole 0))] =
      some [.none, .none, .none, .none, .codepoints [0x61, 0x79, 0xE9, 0x63]] ∧
    (prints [.gfirst 0 (.view 0 0 1), .gnext 0, .glast 1 (.view 0 0 1), .gsame 0 1] = some [.none, .none, .none, .bool true] ∧
     prints [.gfirst 0 (.view 0 0 1), .gnext 0, .gfirst 1 (.view 0 1 3), .gsame 0 1] = some [.none, .none, .none, .bool true]) ∧
    prints [.op (.appendCps 0 [0x301]), .glast 0 (.view 0 2 4), .gget 0] ≠ some [.none, .none, .codepoints []] ∧
    prints [.hold 0 (.view 0 1 2), .op (.read (.held 0)), .op (.write 0 0 0xE9), .op (.read (.held 0))] ≠
      some [.none, .codepoints [0x62], .none, .codepoints [0x62]] ∧
    prints [.hold 0 (.view 0 1 2), .op (.read (.held 0)), .op (.write 0 0 0x7A), .op (.read (.held 0))] =
      some [.none, .codepoints [0x62], .none, .codepoints [0x62]] := by decide +kernel

end U5e
