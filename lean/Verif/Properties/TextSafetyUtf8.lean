import Verif.Proofs.OctetsFwd
import Verif.Properties.TextSafety
import Verif.Properties.NormalizeUtf8
/-!
# C48 with a UTF-8 string as output

Into which kind of string a text is normalized only matters at the very end: over any iterator the run into a UTF-8 string
is the run into a utf32ne string followed by appending the result (`normalizeText_transfer`).
-/
namespace U5e
open Spec

/-- `op` computes something from its input alone and appends it. -/
def Appends (append : AppendFn β) (op32 : α → List Int → Res (Int × List Int)) (op : α → β → Res (Int × β)) : Prop :=
  ∀ x, ∃ r : Res (Int × List Int), (∀ out, op32 x out = (r >>= fun kl => .ok (kl.1, out ++ kl.2))) ∧
    ∀ out, op x out = (r >>= fun kl => append out kl.2 >>= fun o => .ok (kl.1, o))

theorem Form.appends (F : Form) (sort : SortFn) (append : AppendFn β) (hnt : ∀ o l, append o l ≠ .tmo) (I : CpIter)
    (fuel : Nat) : Appends append (F.run sort append32 I fuel) (F.run sort append I fuel) := by
  have comp : ∀ (x : Res (Int × List Int)),
      ∃ r : Res (Int × List Int),
        (∀ out : List Int, (x >>= fun cd => canonicalComposition ((sort canonicalCombiningOrder cd.2).length + 1) (sort canonicalCombiningOrder cd.2) 0 >>= fun y =>
          append32 out (y.1.take y.2.1) >>= fun o => addInt cd.1 (-y.2.2) >>= fun k => (.ok (k, o) : Res (Int × List Int))) =
          (r >>= fun kl => .ok (kl.1, out ++ kl.2))) ∧
        ∀ out : β, (x >>= fun cd => canonicalComposition ((sort canonicalCombiningOrder cd.2).length + 1) (sort canonicalCombiningOrder cd.2) 0 >>= fun y =>
          append out (y.1.take y.2.1) >>= fun o => addInt cd.1 (-y.2.2) >>= fun k => (.ok (k, o) : Res (Int × β))) =
          (r >>= fun kl => append out kl.2 >>= fun o => .ok (kl.1, o)) := by
    intro x
    refine ⟨x >>= fun cd => canonicalComposition ((sort canonicalCombiningOrder cd.2).length + 1) (sort canonicalCombiningOrder cd.2) 0 >>= fun y =>
      addInt cd.1 (-y.2.2) >>= fun k => .ok (k, y.1.take y.2.1), fun out => ?_, fun out => ?_⟩
    · cases x with
      | ub => rfl
      | tmo => rfl
      | ok cd =>
        simp only [Res.bind_ok]
        cases canonicalComposition ((sort canonicalCombiningOrder cd.2).length + 1) (sort canonicalCombiningOrder cd.2) 0 with
        | ub => rfl
        | tmo => rfl
        | ok y =>
          simp only [Res.bind_ok, append32]
          cases addInt cd.1 (-y.2.2) <;> rfl
    · cases x with
      | ub => rfl
      | tmo => rfl
      | ok cd =>
        simp only [Res.bind_ok]
        cases canonicalComposition ((sort canonicalCombiningOrder cd.2).length + 1) (sort canonicalCombiningOrder cd.2) 0 with
        | ub => rfl
        | tmo => rfl
        | ok y =>
          simp only [Res.bind_ok]
          have := hnt out (y.1.take y.2.1)
          have h2 : addInt cd.1 (-y.2.2) ≠ .tmo := by unfold addInt; split <;> simp
          cases h3 : addInt cd.1 (-y.2.2) with
          | ok k => simp only [Res.bind_ok]
          | tmo => exact absurd h3 h2
          | ub =>
            cases h4 : append out (y.1.take y.2.1) with
            | ok o => rfl
            | ub => rfl
            | tmo => exact absurd h4 this
  intro g
  cases F with
  | D =>
    refine ⟨filter I.input fuel g.first g.last [] canonicalDecomposition >>= fun cd => .ok (cd.1, sort canonicalCombiningOrder cd.2),
      fun out => ?_, fun out => ?_⟩
    · show normalizationFormD _ _ _ _ _ _ = _
      unfold normalizationFormD
      cases filter I.input fuel g.first g.last [] canonicalDecomposition <;> rfl
    · show normalizationFormD _ _ _ _ _ _ = _
      unfold normalizationFormD
      cases filter I.input fuel g.first g.last [] canonicalDecomposition <;> rfl
  | KD =>
    refine ⟨filter I.input fuel g.first g.last [] compatibilityDecomposition >>= fun cd => .ok (cd.1, sort canonicalCombiningOrder cd.2),
      fun out => ?_, fun out => ?_⟩
    · show normalizationFormKD _ _ _ _ _ _ = _
      unfold normalizationFormKD
      cases filter I.input fuel g.first g.last [] compatibilityDecomposition <;> rfl
    · show normalizationFormKD _ _ _ _ _ _ = _
      unfold normalizationFormKD
      cases filter I.input fuel g.first g.last [] compatibilityDecomposition <;> rfl
  | C => exact comp (filter I.input fuel g.first g.last [] canonicalDecomposition)
  | KC => exact comp (filter I.input fuel g.first g.last [] compatibilityDecomposition)

theorem filterLoop_transfer (append : AppendFn β)
    (happ : ∀ o a b, append o (a ++ b) = (append o a >>= fun o => append o b)) (hnil : ∀ o, append o [] = .ok o)
    (hnt : ∀ o l, append o l ≠ .tmo)
    (it : InputIter σ α) {op32 : α → List Int → Res (Int × List Int)} {op : α → β → Res (Int × β)}
    (hop : Appends append op32 op) (to : σ) (fuel : Nat) : ∀ (s : σ) (pre : List Int) (k : Int) (out : β),
    (∀ n l, filterLoop it op32 to fuel s pre k = .ok (n, l) →
      ∃ ns, l = pre ++ ns ∧ filterLoop it op to fuel s out k = (append out ns >>= fun o => .ok (n, o))) ∧
    (filterLoop it op32 to fuel s pre k = .tmo → filterLoop it op to fuel s out k = .tmo ∨ filterLoop it op to fuel s out k = .ub) ∧
    (filterLoop it op32 to fuel s pre k = .ub → filterLoop it op to fuel s out k = .ub) := by
  induction fuel with
  | zero => intro s pre k out; simp [filterLoop]
  | succ fuel ih =>
    intro s pre k out
    simp only [filterLoop]
    cases it.ne s to with
    | ub => simp
    | tmo => simp
    | ok more =>
      simp only [Res.bind_ok]
      cases more with
      | false =>
        refine ⟨fun n l h => ?_, fun h => by simp at h, fun h => by simp at h⟩
        simp only [Bool.false_eq_true, if_false, Res.pure_eq, Res.ok.injEq, Prod.mk.injEq] at h
        exact ⟨[], by simp [h.2], by simp [hnil, h.1]⟩
      | true =>
        simp only [if_true]
        cases it.deref s with
        | ub => simp
        | tmo => simp
        | ok xs =>
          obtain ⟨x, s1⟩ := xs
          simp only [Res.bind_ok]
          obtain ⟨r, h32, h8⟩ := hop x
          rw [h32, h8]
          cases r with
          | ub => simp
          | tmo => simp
          | ok kl =>
            obtain ⟨j, l1⟩ := kl
            simp only [Res.bind_ok]
            cases ho : append out l1 with
            | tmo => exact absurd ho (hnt _ _)
            | ub =>
              refine ⟨fun n l h => ?_, fun _ => by simp, fun _ => by simp⟩
              cases hk : addInt k j with
              | ub => rw [hk] at h; simp at h
              | tmo => rw [hk] at h; simp at h
              | ok k1 =>
                rw [hk] at h
                simp only [Res.bind_ok] at h
                cases hs : it.inc s1 with
                | ub => rw [hs] at h; simp at h
                | tmo => rw [hs] at h; simp at h
                | ok s2 =>
                  rw [hs] at h
                  simp only [Res.bind_ok] at h
                  obtain ⟨ns, hl, _⟩ := (ih s2 (pre ++ l1) k1 out).1 n l h
                  refine ⟨l1 ++ ns, by rw [hl, List.append_assoc], ?_⟩
                  rw [happ, ho]; rfl
            | ok out1 =>
              simp only [Res.bind_ok]
              cases hk : addInt k j with
              | ub => simp
              | tmo => simp
              | ok k1 =>
                simp only [Res.bind_ok]
                cases it.inc s1 with
                | ub => simp
                | tmo => simp
                | ok s2 =>
                  simp only [Res.bind_ok]
                  obtain ⟨i1, i2, i3⟩ := ih s2 (pre ++ l1) k1 out1
                  refine ⟨fun n l h => ?_, i2, i3⟩
                  obtain ⟨ns, hl, he⟩ := i1 n l h
                  refine ⟨l1 ++ ns, by rw [hl, List.append_assoc], ?_⟩
                  rw [he, happ, ho]; rfl

theorem append8_ne_tmo (o : List Octet) (l : List Int) : append8 o l ≠ .tmo := (appendFromUtf32_ub o _).2

/-- Over any iterator, normalizing into a UTF-8 string against normalizing into a utf32ne string. -/
theorem normalizeText_transfer (F : Form) (sort : SortFn) (I : CpIter) (fuel b e : Nat) (out : List Octet) :
    (∀ n ns, normalizeText (F.run sort append32) I fuel b e [] = .ok (n, ns) →
      normalizeText (F.run sort append8) I fuel b e out = (append8 out ns >>= fun o => .ok (n, o))) ∧
    (normalizeText (F.run sort append32) I fuel b e [] = .tmo →
      normalizeText (F.run sort append8) I fuel b e out = .tmo ∨ normalizeText (F.run sort append8) I fuel b e out = .ub) ∧
    (normalizeText (F.run sort append32) I fuel b e [] = .ub → normalizeText (F.run sort append8) I fuel b e out = .ub) := by
  simp only [normalizeText, filterGraphemes]
  cases graphemeBegin I fuel b e with
  | ub => simp
  | tmo => simp
  | ok g =>
    cases graphemeEnd I fuel b e with
    | ub => simp
    | tmo => simp
    | ok z =>
      simp only [Res.bind_ok, filter]
      have := filterLoop_transfer append8 append8_append (fun _ => rfl) append8_ne_tmo (graphemeInput I fuel)
        (F.appends sort append8 append8_ne_tmo I fuel) z fuel g [] 0 out
      refine ⟨fun n ns h => ?_, this.2⟩
      obtain ⟨ns', h1, h2⟩ := this.1 n ns h
      rw [h1, List.nil_append]; exact h2

/-- C48 with UTF-8 output. Normalizing ANY tame octets on which iteration is never stuck into a utf8_string: with `ns`
the codepoints the same call writes into a utf32ne_string, the call is undefined exactly if one of them, as an `int`, is
zero, negative (possible for an octet 0xFE) or one of the codepoints for which the encoder leaves its scratch buffer
(C11); otherwise it returns their number and appends what append_from_utf32ne appends for them. -/
theorem C48_into_utf8 (F : Form) (sort : SortFn) (hs : ConformingSort sort) (t : List UInt8) (T : Tame t)
    (hlen : 20 * t.length < 2 ^ 31) (hns : ∀ s, Rests t s → ¬ Stuck t s) (fuel : Nat) (hf : t.length < fuel)
    (out : List UInt8) :
    ∃ ns : List Int,
      normalizeText (F.run sort append32) (utf8Iter (t ++ [0])) fuel 0 t.length [] = .ok ((ns.length : Int), ns) ∧
      normalizeText (F.run sort append8) (utf8Iter (t ++ [0])) fuel 0 t.length out =
        (appendFromUtf32 out (ns.map (BitVec.ofInt 32)) >>= fun o => .ok ((ns.length : Int), o)) ∧
      (normalizeText (F.run sort append8) (utf8Iter (t ++ [0])) fuel 0 t.length out = .ub ↔
        ∃ x ∈ ns, BitVec.ofInt 32 x = 0#32 ∨ (BitVec.ofInt 32 x).toInt < 0 ∨ OverReads (BitVec.ofInt 32 x).toNat) := by
  obtain ⟨ns, h, _⟩ := (C48_normalization_terminates F sort hs t T hlen).1 hns fuel hf
  have he := (normalizeText_transfer F sort (utf8Iter (t ++ [0])) fuel 0 t.length out).1 _ _ h
  refine ⟨ns, h, he, ?_⟩
  have hub := (appendFromUtf32_ub out (ns.map (BitVec.ofInt 32))).1
  have hub' : appendFromUtf32 out (ns.map (BitVec.ofInt 32)) = .ub ↔
      ∃ x ∈ ns, BitVec.ofInt 32 x = 0#32 ∨ (BitVec.ofInt 32 x).toInt < 0 ∨ OverReads (BitVec.ofInt 32 x).toNat := by
    rw [hub]
    constructor
    · rintro ⟨v, hv, h⟩
      obtain ⟨x, hx, rfl⟩ := List.mem_map.mp hv
      exact ⟨x, hx, h⟩
    · rintro ⟨x, hx, h⟩
      exact ⟨_, List.mem_map.mpr ⟨x, hx, rfl⟩, h⟩
  rw [← hub', he]
  simp only [append8]
  cases appendFromUtf32 out (ns.map (BitVec.ofInt 32)) <;> simp

/-- C48 with UTF-8 output: where iteration is stuck, normalizing does not return; it goes on for ever or is undefined. -/
theorem C48_into_utf8_stuck (F : Form) (sort : SortFn) (hs : ConformingSort sort) (t : List UInt8) (T : Tame t)
    (hlen : 20 * t.length < 2 ^ 31) (hst : ∃ s, Rests t s ∧ Stuck t s) (fuel : Nat) (out : List UInt8) (r : Int × List UInt8) :
    normalizeText (F.run sort append8) (utf8Iter (t ++ [0])) fuel 0 t.length out ≠ .ok r := by
  have h := (C48_normalization_terminates F sort hs t T hlen).2 hst fuel
  rcases (normalizeText_transfer F sort (utf8Iter (t ++ [0])) fuel 0 t.length out).2.1 h with h | h <;> rw [h] <;> simp

/-- Instances: the text of `tame_stuck_example`; and a text in which a stray lead octet swallows two letters. -/
example (F : Form) (fuel : Nat) (out : List UInt8) := C48_into_utf8_stuck F insSort insSort_stable.1 _
  tame_stuck_example.1 (by decide) tame_stuck_example.2 fuel out

example (F : Form) (out : List UInt8) := C48_into_utf8 F insSort insSort_stable.1 [0x41, 0xE0, 0x42, 0x43, 0x44, 0x45]
  (tame_of_check (by decide) (by decide) (by decide +kernel)) (by decide)
  (by
    have hno : ∀ o ∈ ([0x41, 0xE0, 0x42, 0x43, 0x44, 0x45] : List UInt8), ¬ IsContinuation o := by decide
    rintro s _ ⟨l, _, h⟩
    obtain ⟨c, h1, h2⟩ := h (s + 1) (by omega) (by have := claimed_pos l; omega)
    exact hno c (List.mem_of_getElem? h1) h2)
  7 (by decide) out

/-- Non-vacuity: malformed but tame octets, once with a defined result, once undefined (U+0000). -/
example : Tame [0x41, 0xE0, 0x42, 0xC3, 0x43, 0x44, 0xCC, 0x81] ∧
    normalizeText (Form.D.run insSort append8) (utf8Iter ([0x41, 0xE0, 0x42, 0xC3, 0x43, 0x44, 0xCC, 0x81] ++ [0])) 20 0 8 [] ≠ .ub ∧
    normalizeText (Form.D.run insSort append8) (utf8Iter ([0x41, 0x00, 0x41] ++ [0])) 20 0 3 [] = .ub := by
  refine ⟨tame_example.1, ?_, ?_⟩
  · decide +kernel
  · decide +kernel

end U5e
