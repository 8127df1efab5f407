import Verif.Spec.Views
import Verif.Properties.History
/-!
# Lemmas for programs over both encodings and views (C64)
-/
namespace U5e
open Spec

/-- The part of an iteration between two codepoints. -/
theorem Sim.window {I : CpIter} {pos : Nat → Nat} {cs : List Int} (S : Sim I pos cs) (i j : Nat) (hij : i ≤ j)
    (hj : j ≤ cs.length) : Sim I (fun k => pos (i + k)) ((cs.take j).drop i) := by
  have hl : ((cs.take j).drop i).length = j - i := by simp; omega
  constructor
  · intro k c hk
    refine S.deref (i + k) c ?_
    rw [List.getElem?_drop, List.getElem?_take] at hk
    split at hk
    · exact hk
    · cases hk
  · intro k hk
    rw [← Nat.add_assoc]
    exact S.inc (i + k) (by omega)
  · intro k hk
    show I.dec (pos (i + (k + 1))) = _
    rw [← Nat.add_assoc]
    exact S.dec (i + k) (by omega)
  · intro a b ha hb
    rw [S.eq (i + a) (i + b) (by omega) (by omega)]
    congr 1
    exact decide_eq_decide.mpr (by omega)

/-- One encoding, as the programs with views use it. -/
structure KRefines (k : Kind) (E : Encoding α) (rep : List Nat → List α) : Prop extends Refines E rep where
  size : ∀ cs, (Spec.stored k cs).size = (rep cs).length
  iter : ∀ cs, (Spec.stored k cs).iter = E.over (rep cs)
  appendCpsK : ∀ (out : List α) (cs : List Nat), (∀ c ∈ cs, k.Holds c) →
    E.appendCps out (ints cs) = .ok (out ++ rep cs)
  appendGraphemesK : ∀ (I : CpIter) fuel (out : List α) (cs : List Nat) (a b : GIter),
    readRange I b.where_ fuel a.where_ = .ok (ints cs) → (k = .utf8 → ∀ c ∈ cs, c < 0x80) →
    E.appendGraphemes I fuel out a b = .ok (out ++ rep cs)
  assignK : ∀ (pre post : List Nat) (old n : Nat), (∀ c ∈ pre ++ old :: post, c < 2 ^ 31) → k.Holds n →
    (k = .utf8 → (encode n).length = (encode old).length) →
    (rep (pre ++ n :: post)).length = (rep (pre ++ old :: post)).length ∧
    ∃ q, E.assign (rep (pre ++ old :: post) ++ [E.nul]) (rep pre).length n = .ok (rep (pre ++ n :: post) ++ [E.nul], q) ∧
      (E.over (rep (pre ++ n :: post))).inc q = .ok (rep (pre ++ [n])).length

theorem krefines8 : KRefines .utf8 enc8 encodeText where
  toRefines := refines8
  size _ := rfl
  iter _ := rfl
  appendCpsK := refines8.appendCps
  appendGraphemesK I fuel out cs a b h h7 := refines8.appendGraphemes I fuel out cs a b h (h7 rfl)
  assignK pre post old n h henc hl := refines8.assign pre post old n h henc (hl rfl)

theorem krefines32 : KRefines .utf32 enc32 (fun cs => ints cs) where
  toRefines := refines32
  size _ := rfl
  iter _ := rfl
  appendCpsK out cs _ := rfl
  appendGraphemesK I fuel out cs a b h _ := by
    show appendGraphemes32 _ _ _ _ _ = _
    rw [appendGraphemes32, h]; rfl
  assignK pre post old n _ _ _ := by
    refine ⟨by simp, pre.length, ?_, ?_⟩
    · show assign32 _ _ _ = _
      rw [assign32, if_pos (by simp)]
      simp
    · show (utf32Iter _).inc _ = _
      simp [utf32Iter, enc32]

theorem holds_lt {k : Kind} {n : Nat} (h : k.Holds n) : n < 2 ^ 31 := by
  cases k
  · exact encodable_lt h
  · exact h

theorem edit_stored (k : Kind) (cs cs' : List Nat) (o : γ)
    (f : ∀ {α : Type} [DecidableEq α], Encoding α → List α → Res (List α × γ))
    (h : ∀ {α : Type} [DecidableEq α] (E : Encoding α) (rep : List Nat → List α), KRefines k E rep →
      f E (rep cs) = .ok (rep cs', o)) :
    (Spec.stored k cs).edit f = .ok (Spec.stored k cs', o) := by
  cases k
  · simp only [Spec.stored, Text.edit, h enc8 encodeText krefines8, Res.bind_ok, Res.pure_eq]
  · simp only [Spec.stored, Text.edit, h enc32 (fun cs => ints cs) krefines32, Res.bind_ok, Res.pure_eq]

theorem editFrom_stored (k : Kind) (a b c : List Nat)
    (f : ∀ {α : Type}, Encoding α → List α → List α → Res (List α))
    (h : ∀ {α : Type} (E : Encoding α) (rep : List Nat → List α), KRefines k E rep →
      f E (rep a) (rep b) = .ok (rep c)) :
    (Spec.stored k a).editFrom (Spec.stored k b) f = .ok (Spec.stored k c) := by
  cases k
  · simp only [Spec.stored, Text.editFrom, h enc8 encodeText krefines8, Res.bind_ok, Res.pure_eq]
  · simp only [Spec.stored, Text.editFrom, h enc32 (fun cs => ints cs) krefines32, Res.bind_ok, Res.pure_eq]

theorem stored_nil_size (k : Kind) : (Spec.stored k []).size = 0 := by cases k <;> rfl

/-- Iteration over a stored string. -/
theorem stored_sim (k : Kind) (cs : List Nat) (h : ∀ c ∈ cs, c < 2 ^ 31) : ∃ pos : Nat → Nat,
    (∀ i, i ≤ cs.length → pos i = (Spec.stored k (cs.take i)).size) ∧ Sim (Spec.stored k cs).iter pos (ints cs) ∧
    (Spec.stored k cs).iter.deref (pos cs.length) = .ok (0, pos cs.length) := by
  cases k
  · obtain ⟨pos, _, _, hp, S, he, _⟩ := refines8.sim cs h
    exact ⟨pos, hp, S, he⟩
  · obtain ⟨pos, _, _, hp, S, he, _⟩ := refines32.sim cs h
    exact ⟨pos, hp, S, he⟩

/-- The strings of a program in memory. -/
abbrev memory (τ : Nat → Kind) (σ : Nat → List Nat) : Nat → Text := fun n => Spec.stored (τ n) (σ n)

theorem memory_upd (τ : Nat → Kind) (σ : Nat → List Nat) (d : Nat) (cs : List Nat) :
    memory τ (put σ d cs) = upd (memory τ σ) d (Spec.stored (τ d) cs) := by
  funext n
  simp only [memory, upd, put]
  by_cases h : n = d
  · simp [h]
  · simp [h]

/-- First and last codepoint of what a statement reads. -/
def Src.lo : Src → Nat
  | .whole _ => 0
  | .view _ i _ => i

def Src.hi (σ : Nat → List Nat) : Src → Nat
  | .whole s => (σ s).length
  | .view _ _ j => j

theorem text_eq (σ : Nat → List Nat) (src : Src) :
    text σ src = ((σ src.string).take (src.hi σ)).drop src.lo := by
  cases src <;> simp [text, Src.string, Src.hi, Src.lo]

theorem lo_hi {σ : Nat → List Nat} {src : Src} (h : Inside σ src) :
    src.lo ≤ src.hi σ ∧ src.hi σ ≤ (σ src.string).length := by
  cases src <;> simp_all [Inside, Src.string, Src.hi, Src.lo]

theorem after_eq (σ : Nat → List Nat) (src : Src) : after σ src = (σ src.string)[src.hi σ]?.getD 0 := by
  cases src <;> simp [after, Src.string, Src.hi]

theorem text_length {σ : Nat → List Nat} {src : Src} (h : Inside σ src) :
    (text σ src).length = src.hi σ - src.lo := by
  have := lo_hi h
  rw [text_eq]; simp; omega

theorem text_small {σ : Nat → List Nat} (hσ : Small σ) (src : Src) : ∀ c ∈ text σ src, c < 2 ^ 31 := by
  intro c hc
  rw [text_eq] at hc
  exact hσ _ c (List.mem_of_mem_take (List.mem_of_mem_drop hc))

theorem size_mono (k : Kind) (cs : List Nat) {i j : Nat} (h : i ≤ j) :
    (Spec.stored k (cs.take i)).size ≤ (Spec.stored k (cs.take j)).size := by
  have : cs.take j = cs.take i ++ (cs.take j).drop i := by
    conv => lhs; rw [← List.take_append_drop i (cs.take j), List.take_take, Nat.min_eq_left h]
  rw [this]
  cases k <;> simp [Spec.stored, Text.size, encodeText]

/-- Opening what a statement reads gives iterators over exactly its text. -/
theorem opened_sim (τ : Nat → Kind) {σ : Nat → List Nat} (hσ : Small σ) {src : Src} (h : Inside σ src) :
    ∃ I p q, ∃ pos : Nat → Nat, src.opened (memory τ σ) = .ok (I, p, q) ∧
      p = (Spec.stored (τ src.string) ((σ src.string).take src.lo)).size ∧
      q = (Spec.stored (τ src.string) ((σ src.string).take (src.hi σ))).size ∧
      pos 0 = p ∧ pos (text σ src).length = q ∧
      Sim I pos (ints (text σ src)) ∧ I.deref q = .ok (Int.ofNat (after σ src), q) := by
  obtain ⟨pos, hp, S, he⟩ := stored_sim (τ src.string) (σ src.string) (hσ _)
  obtain ⟨h1, h2⟩ := lo_hi h
  have hw := S.window src.lo (src.hi σ) h1 (by simpa using h2)
  rw [← List.map_take, ← List.map_drop, ← text_eq] at hw
  have hd : (Spec.stored (τ src.string) (σ src.string)).iter.deref (pos (src.hi σ)) =
      .ok (Int.ofNat (after σ src), pos (src.hi σ)) := by
    rw [after_eq]
    by_cases hh : src.hi σ = (σ src.string).length
    · rw [hh, he]; simp
    · have hlt : src.hi σ < (σ src.string).length := by omega
      have := S.deref (src.hi σ) (Int.ofNat (σ src.string)[src.hi σ]) (by simp [hlt])
      rw [this]; simp [hlt]
  refine ⟨_, pos src.lo, pos (src.hi σ), fun n => pos (src.lo + n), ?_, hp _ (by omega), hp _ h2, by simp, ?_, hw, hd⟩
  · cases src with
    | whole s =>
      have e0 : pos 0 = 0 := by rw [hp 0 (Nat.zero_le _), List.take_zero, stored_nil_size]
      have el : pos (σ s).length = (Spec.stored (τ s) (σ s)).size := by
        have := hp (σ s).length (Nat.le_refl _)
        simpa [Src.string] using this
      simp only [Src.opened, Src.lo, Src.hi, Src.string, e0, el]
    | view s i j =>
      simp only [Src.string, Src.hi, Src.lo] at *
      have e0 : pos 0 = 0 := by rw [hp 0 (Nat.zero_le _), List.take_zero, stored_nil_size]
      have ha := stdNext_sim S i 0 (by simp; omega)
      have hb := stdNext_sim S j 0 (by simp; omega)
      rw [e0, Nat.zero_add] at ha hb
      have hle : pos i ≤ pos j := by
        rw [hp i (by omega), hp j h2]; exact size_mono _ _ h1
      simp only [Src.opened, ha, hb, Res.bind_ok, hle, if_true, Res.pure_eq]
  · show pos (src.lo + (text σ src).length) = _
    rw [text_length h, Nat.add_sub_cancel' h1]

/-- The loop of `transform` after the codepoints `done` have been written. -/
theorem transformLoop_eqK {k : Kind} {E : Encoding α} {rep : List Nat → List α} (R : KRefines k E rep) (f : Int → Int)
    (todo : List Nat) : ∀ (done : List Nat) (fuel last : Nat), (∀ c ∈ done ++ todo, c < 2 ^ 31) →
    (∀ c ∈ todo, ∃ n : Nat, f c = n ∧ k.Holds n ∧ (k = .utf8 → (encode n).length = (encode c).length)) →
    last = (rep (done ++ todo)).length → todo.length < fuel →
    ∃ todo' : List Nat, ints todo' = (ints todo).map f ∧ (∀ c ∈ todo', c < 2 ^ 31) ∧
      E.transformLoop f last fuel (rep (done ++ todo) ++ [E.nul]) (rep done).length =
        .ok (rep (done ++ todo') ++ [E.nul]) := by
  induction todo with
  | nil =>
    intro done fuel last h31 _ hlast hf
    obtain ⟨fuel, rfl⟩ : ∃ k, fuel = k + 1 := ⟨fuel - 1, by simp at hf; omega⟩
    obtain ⟨pos, _, hl, _, S, _, _⟩ := R.sim (done ++ []) h31
    refine ⟨[], rfl, by simp, ?_⟩
    have he := S.eq (done ++ []).length (done ++ []).length (by simp) (by simp)
    rw [hl, ← hlast] at he
    have : (rep done).length = last := by rw [hlast, List.append_nil]
    rw [Encoding.transformLoop, this]
    show (((E.over (rep (done ++ []))).eq last last) >>= _) = _
    rw [he]
    simp
  | cons c todo ih =>
    intro done fuel last h31 ha hlast hf
    obtain ⟨fuel, rfl⟩ : ∃ k, fuel = k + 1 := ⟨fuel - 1, by simp at hf; omega⟩
    obtain ⟨n, hfc, henc, hsz⟩ := ha c (by simp)
    obtain ⟨pos, _, hl, hpos, S, _, _⟩ := R.sim (done ++ c :: todo) h31
    obtain ⟨hlen, q, hq, hinc⟩ := R.assignK done todo c n h31 henc hsz
    have hp := hpos done.length (by simp)
    rw [List.take_left'] at hp
    · have he := S.eq done.length (done ++ c :: todo).length (by simp) (by simp)
      rw [hl, hp, ← hlast] at he
      have hd := S.deref done.length c (by simp [ints])
      rw [hp] at hd
      have e1 : done ++ n :: todo = (done ++ [n]) ++ todo := by simp
      obtain ⟨t', ht', h31', hloop⟩ := ih (done ++ [n]) fuel last (by
          intro x hx
          simp only [List.append_assoc, List.mem_append, List.mem_cons, List.not_mem_nil, or_false] at hx
          rcases hx with hx | rfl | hx
          · exact h31 x (by simp [hx])
          · exact holds_lt henc
          · exact h31 x (by simp [hx]))
        (fun x hx => ha x (by simp [hx])) (by rw [hlast, ← hlen, e1]) (by simp at hf; omega)
      refine ⟨n :: t', by simp [ht', hfc], ?_, ?_⟩
      · intro x hx
        rcases List.mem_cons.mp hx with rfl | hx
        · exact holds_lt henc
        · exact h31' x hx
      · rw [Encoding.transformLoop]
        show (((E.over (rep (done ++ c :: todo))).eq _ _) >>= _) = _
        rw [he]
        simp only [Res.bind_ok]
        rw [decide_eq_false (by simp)]
        simp only [Bool.false_eq_true, if_false]
        show (((E.over (rep (done ++ c :: todo))).deref _) >>= _) = _
        rw [hd]
        simp only [Res.bind_ok, hfc, hq]
        show (((E.over (rep (done ++ n :: todo))).inc _) >>= _) = _
        rw [hinc, Res.bind_ok, e1, hloop]
        simp
    · rfl

end U5e
