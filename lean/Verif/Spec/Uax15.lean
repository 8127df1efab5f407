import Verif.Spec.Normal
/-!
# UAX #15 / Unicode Standard chapter 3: canonical ordering, Hangul, canonical composition

Specification only; nothing here mentions the model. `map` is a fully resolved decomposition mapping
(zero-terminated rows), `ccc` the canonical combining class, `comp` the primary composites other than
Hangul syllables.
-/
namespace U5e.Spec

/-- D108: an adjacent reorderable pair `a b` (`ccc a > ccc b > 0`) is exchanged. -/
inductive Exchange (ccc : Int → Int) : List Int → List Int → Prop
  | mk (p : List Int) (a b : Int) (q : List Int) (h1 : ccc b < ccc a) (h2 : 0 < ccc b) :
      Exchange ccc (p ++ a :: b :: q) (p ++ b :: a :: q)

/-- Zero or more exchanges. -/
inductive Exchanges (ccc : Int → Int) : List Int → List Int → Prop
  | refl (l) : Exchanges ccc l l
  | step {l m n} : Exchange ccc l m → Exchanges ccc m n → Exchanges ccc l n

/-- D109, the Canonical Ordering Algorithm: `l'` comes from `l` by exchanging reorderable pairs until
there is none. -/
def IsCanonicalOrder (ccc : Int → Int) (l l' : List Int) : Prop :=
  Exchanges ccc l l' ∧ ∀ l'', ¬ Exchange ccc l' l''

/-- Precomposed Hangul syllables (section 3.12). -/
def IsHangulSyllable (s : Int) : Prop := 0xAC00 ≤ s ∧ s ≤ 0xD7A3
instance (s : Int) : Decidable (IsHangulSyllable s) := inferInstanceAs (Decidable (_ ∧ _))

/-- Arithmetic decomposition of a Hangul syllable into conjoining jamo (section 3.12). -/
def hangulDecomposition (s : Int) : List Int :=
  let i := s - 0xAC00
  [0x1100 + i / 588, 0x1161 + i % 588 / 28] ++ (if i % 28 = 0 then [] else [0x11A7 + i % 28])

/-- Arithmetic composition of Hangul syllables (section 3.12): L + V gives an LV syllable, LV + T an LVT
syllable. -/
def hangulComposition (a b : Int) : Option Int :=
  if 0x1100 ≤ a ∧ a < 0x1113 ∧ 0x1161 ≤ b ∧ b < 0x1176 then
    some (0xAC00 + ((a - 0x1100) * 21 + (b - 0x1161)) * 28)
  else if IsHangulSyllable a ∧ (a - 0xAC00) % 28 = 0 ∧ 0x11A7 < b ∧ b < 0x11C3 then
    some (a + (b - 0x11A7))
  else none

/-- D68 / D65: full decomposition of a codepoint, Hangul syllables included. -/
def uaxFull (map : Int → Option (List Int)) (c : Int) : List Int :=
  if IsHangulSyllable c then hangulDecomposition c else full map c

/-- Primary composites, Hangul syllables included. -/
def uaxComp (comp : Int → Int → Option Int) (a b : Int) : Option Int :=
  match hangulComposition a b with
  | some s => some s
  | none => comp a b

/-- D115 for what lies between a starter and `c`: nothing between is a starter or has a class at least
that of `c`. -/
def Unblocked (ccc : Int → Int) (mid : List Int) (c : Int) : Prop :=
  ∀ m ∈ mid, 0 < ccc m ∧ ccc m < ccc c

/-- One step of D117. `acc` is the text so far in reverse. The next codepoint `c` is combined with the
last starter of the text so far, if `c` is not blocked from it and the pair has a primary composite;
otherwise `c` is kept. -/
def composeStep (ccc : Int → Int) (comp : Int → Int → Option Int) (acc : List Int) (c : Int) : List Int :=
  let mid := acc.takeWhile (fun m => ccc m != 0)
  match acc.dropWhile (fun m => ccc m != 0) with
  | [] => c :: acc
  | starter :: before =>
    if mid.all (fun m => decide (ccc m < ccc c)) then
      match comp starter c with
      | some p => mid ++ p :: before
      | none => c :: acc
    else c :: acc

/-- D117, the Canonical Composition Algorithm. -/
def uaxCompose (ccc : Int → Int) (comp : Int → Int → Option Int) (l : List Int) : List Int :=
  (l.foldl (composeStep ccc comp) []).reverse

/-- D118/D120 (with a compatibility `map`: D119/D121): `d` is the normalization form D (KD) of `cs`. -/
def IsUaxD (ccc : Int → Int) (map : Int → Option (List Int)) (cs d : List Int) : Prop :=
  IsCanonicalOrder ccc (cs.flatMap (uaxFull map)) d

/-- `n` is the normalization form C (KC) of `cs`. -/
def IsUaxC (ccc : Int → Int) (map : Int → Option (List Int)) (comp : Int → Int → Option Int)
    (cs n : List Int) : Prop :=
  ∃ d, IsUaxD ccc map cs d ∧ n = uaxCompose ccc (uaxComp comp) d

/-- No starter comes after a non-starter. -/
def StartersFirst (ccc : Int → Int) (l : List Int) : Prop :=
  l.Pairwise (fun a b => ccc a ≠ 0 → ccc b ≠ 0)

/-- `l` contains a starter and a later codepoint that is not blocked from it and that together have a
primary composite. -/
def HasUnblockedPair (ccc : Int → Int) (comp : Int → Int → Option Int) (l : List Int) : Prop :=
  ∃ p s mid c q, l = p ++ s :: (mid ++ c :: q) ∧ ccc s = 0 ∧ Unblocked ccc mid c ∧ comp s c ≠ none

end U5e.Spec
