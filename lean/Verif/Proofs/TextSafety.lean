import Verif.Proofs.NormText
import Verif.Proofs.GraphemeMore
import Verif.Proofs.Safety
import Verif.Proofs.Walk
/-! Grapheme iteration with a codepoint iterator that need not simulate a list: equality may hold
between different codepoints and `++` may be stuck, as happens with UTF-8 iterators over malformed
text. -/
namespace U5e
open Spec

/-- `r` is `ok` with a result satisfying `P`, or it is out of fuel and `fin` does not hold. -/
def Out (fin : Prop) (r : Res α) (P : α → Prop) : Prop :=
  (∃ a, r = .ok a ∧ P a) ∨ (r = .tmo ∧ ¬ fin)

theorem Out.ok {fin : Prop} {P : α → Prop} {a : α} (h : P a) : Out fin (.ok a) P := .inl ⟨a, rfl, h⟩

theorem Out.bind {fin : Prop} {r : Res α} {P : α → Prop} {f : α → Res β} {Q : β → Prop}
    (h : Out fin r P) (hf : ∀ a, P a → Out fin (f a) Q) : Out fin (r >>= f) Q := by
  rcases h with ⟨a, rfl, h⟩ | ⟨rfl, h⟩
  · exact hf a h
  · exact .inr ⟨rfl, h⟩

theorem Out.mono {fin fin' : Prop} {r : Res α} {P Q : α → Prop} (h : Out fin r P)
    (hf : fin' → fin) (hP : ∀ a, P a → Q a) : Out fin' r Q := by
  rcases h with ⟨a, rfl, h⟩ | ⟨rfl, h⟩
  · exact .inl ⟨a, rfl, hP a h⟩
  · exact .inr ⟨rfl, fun h' => h (hf h')⟩

/-- What is needed of an iterator: `st p` is the position `p` really stands for, `sz p` the number of
positions equal to it. -/
structure Wk (I : CpIter) (st sz : Nat → Nat) (val : Nat → Int) (e : Nat) : Prop where
  le : ∀ p, p ≤ e → st p ≤ p
  idem : ∀ p, p ≤ e → st (st p) = st p
  zero : st 0 = 0
  atEnd : st e = e
  szst : ∀ p, p ≤ e → sz (st p) = sz p
  pos : ∀ p, 0 < sz p
  room : ∀ p, p < e → st p + sz p ≤ e
  mono : ∀ p, p < e → st p ≤ st (st p + sz p)
  eq : ∀ p q, p ≤ e → I.eq p q = .ok (decide (st p ≤ q ∧ q < st p + sz p))
  deref : ∀ p, p ≤ e → I.deref p = .ok (val p, st p)
  inc : ∀ p, p < e → I.inc p = .ok (st p + sz p)
  dec : 0 < e → ∃ q, q ≤ e ∧ I.dec e = .ok q
  endVal : ∀ a, isGraphemeBoundary a (val e) = true

/-- Iterating from `p` until the iterator equals `x` reads `cs`. -/
inductive Reach (st sz : Nat → Nat) (val : Nat → Int) (e : Nat) : Nat → Nat → List Int → Prop
  | stop {p x} : p ≤ e → (st p ≤ x ∧ x < st p + sz p) → Reach st sz val e p x []
  | step {p x cs} : p < e → ¬ (st p ≤ x ∧ x < st p + sz p) → Reach st sz val e (st p + sz p) x cs →
      Reach st sz val e p x (val p :: cs)

/-- One increment, as a function on the positions really stood for. -/
def hopOne (st sz : Nat → Nat) (e s : Nat) : Nat := if s < e then st (s + sz s) else s

/-- `hop` repeated. -/
def hops (st sz : Nat → Nat) (e : Nat) : Nat → Nat → Nat
  | 0, s => s
  | n + 1, s => hops st sz e n (hopOne st sz e s)

/-- The position is reached from the beginning. -/
def From (st sz : Nat → Nat) (e s : Nat) : Prop := ∃ n, s = hops st sz e n 0

/-- No position reached is stuck. -/
def NoStuck (st sz : Nat → Nat) (e : Nat) : Prop :=
  ∀ s, From st sz e s → s < e → st (s + sz s) ≠ s

section
variable {I : CpIter} {st sz : Nat → Nat} {val : Nat → Int} {e : Nat}

theorem hops_succ (n s : Nat) : hops st sz e (n + 1) s = hopOne st sz e (hops st sz e n s) := by
  induction n generalizing s with
  | zero => rfl
  | succ n ih => rw [hops, ih]; rfl

theorem From.hop {s : Nat} (h : From st sz e s) : From st sz e (hopOne st sz e s) := by
  obtain ⟨n, rfl⟩ := h
  exact ⟨n + 1, (hops_succ n 0).symm⟩

theorem From.next {s : Nat} (h : From st sz e s) (hs : s < e) : From st sz e (st (s + sz s)) := by
  have := h.hop
  rwa [hopOne, if_pos hs] at this

theorem hops_fix {s : Nat} (h : hopOne st sz e s = s) (n : Nat) : hops st sz e n s = s := by
  induction n with
  | zero => rfl
  | succ n ih => rw [hops, h, ih]

theorem hops_add (a b s : Nat) : hops st sz e (a + b) s = hops st sz e b (hops st sz e a s) := by
  induction a generalizing s with
  | zero => rw [Nat.zero_add]; rfl
  | succ a ih => rw [show a + 1 + b = (a + b) + 1 by omega, hops, ih]; rfl

theorem From.fix_unique {s s' : Nat} (h : From st sz e s) (h' : From st sz e s')
    (hf : hopOne st sz e s = s) (hf' : hopOne st sz e s' = s') : s = s' := by
  obtain ⟨n, hn⟩ := h
  obtain ⟨n', hn'⟩ := h'
  have a := hops_add (st := st) (sz := sz) (e := e) n n' 0
  have b := hops_add (st := st) (sz := sz) (e := e) n' n 0
  rw [← hn, hops_fix hf] at a
  rw [← hn', hops_fix hf', Nat.add_comm] at b
  rw [← a, b]

/-- If the end is reached, no position reached is stuck. -/
theorem noStuck_of_end (h : From st sz e e) : NoStuck st sz e := by
  intro s hs hlt heq
  have := From.fix_unique hs h (by rw [hopOne, if_pos hlt, heq]) (by rw [hopOne, if_neg (by omega)])
  omega

variable (W : Wk I st sz val e)
include W

omit W in
theorem Reach.fix {p x : Nat} {cs : List Int} (h : Reach st sz val e p x cs)
    (hfix : st p + sz p = p) : st p ≤ x ∧ x < st p + sz p := by
  induction h with
  | stop _ h => exact h
  | step _ hn _ ih =>
    rw [hfix] at ih
    exact absurd (ih hfix) hn

theorem Reach.length {p x : Nat} {cs : List Int} (h : Reach st sz val e p x cs) :
    st p + cs.length ≤ x := by
  induction h with
  | stop _ h => simpa using h.1
  | @step p x cs hp hn hr ih =>
    have hm := W.mono p hp
    rw [List.length_cons]
    rcases Nat.lt_or_ge (st p) (st (st p + sz p)) with hlt | hge
    · omega
    · exfalso
      have h1 : st (st p + sz p) = st p := by omega
      have h2 : sz (st p + sz p) = sz p := by
        have := W.szst _ (W.room p hp)
        rw [h1, W.szst p (by omega)] at this
        exact this.symm
      have := Reach.fix hr (by rw [h1, h2])
      rw [h1, h2] at this
      exact hn this

theorem Reach.traverses {p x : Nat} {cs : List Int} (h : Reach st sz val e p x cs) :
    Traverses I.input p x cs := by
  induction h with
  | stop hp h => exact .done (by simp [CpIter.input, W.eq _ _ hp, h])
  | @step p x cs hp hn _ ih =>
    have hle := W.le p (by omega)
    refine .step (s' := st p) (s'' := st p + sz p) ?_ (W.deref p (by omega)) ?_ ih
    · simp only [CpIter.input, W.eq _ _ (show p ≤ e by omega), Res.bind_ok, Res.pure_eq, hn, decide_false,
        Bool.not_false]
    · show I.inc (st p) = _
      rw [W.inc (st p) (by omega), W.idem p (by omega), W.szst p (by omega)]

theorem end_eq {p : Nat} (hp : p ≤ e) : (st p ≤ e ∧ e < st p + sz p) ↔ p = e := by
  constructor
  · intro h
    rcases Nat.lt_or_ge p e with hlt | hge
    · have := W.room p hlt; omega
    · omega
  · rintro rfl
    have := W.atEnd
    have := W.pos p
    omega

theorem findEndLoop_out (fuel : Nat) (a : Int) (p : Nat) (hp : p ≤ e) (hfrom : From st sz e (st p)) :
    Out (NoStuck st sz e ∧ e - st p < fuel) (findEndLoop I e fuel a p)
      (fun x => x ≤ e ∧ st x = x ∧ From st sz e x ∧ ∃ cs, Reach st sz val e p x cs) := by
  induction fuel generalizing a p with
  | zero => exact .inr ⟨rfl, by omega⟩
  | succ fuel ih =>
    simp only [findEndLoop, W.eq _ _ hp, Res.bind_ok]
    split
    · next h =>
      obtain rfl := (end_eq W hp).mp (by simpa using h)
      refine Out.ok ⟨hp, W.atEnd, ?_, [], .stop hp ?_⟩
      · rw [W.atEnd] at hfrom; exact hfrom
      · simpa using h
    · next h =>
      have hne : p ≠ e := fun he => h (by simpa using (end_eq W hp).mpr he)
      have hlt : p < e := by omega
      have hle := W.le p hp
      simp only [W.deref p hp, Res.bind_ok]
      split
      · refine Out.ok ⟨by omega, W.idem p hp, hfrom, [], .stop hp ?_⟩
        have := W.pos p; omega
      · rw [W.inc (st p) (by omega), W.idem p hp, W.szst p hp]
        simp only [Res.bind_ok]
        have hnext : From st sz e (st (st p + sz p)) := by
          have := hfrom.next (by omega)
          rwa [W.szst p hp] at this
        refine (ih (val p) (st p + sz p) (W.room p hlt) hnext).mono ?_ ?_
        · rintro ⟨h1, h2⟩
          have h3 := h1 (st p) hfrom (by omega)
          rw [W.szst p hp] at h3
          have := W.mono p hlt
          exact ⟨h1, by omega⟩
        · rintro x ⟨h1, h2, h3, cs, h4⟩
          refine ⟨h1, h2, h3, ?_⟩
          by_cases hh : st p ≤ x ∧ x < st p + sz p
          · exact ⟨[], .stop hp hh⟩
          · exact ⟨_, .step hlt hh h4⟩

theorem findEnd_out (fuel w : Nat) (hw : w ≤ e) (hst : st w = w) (hfrom : From st sz e w) :
    Out (NoStuck st sz e ∧ e - w < fuel) (findEnd I fuel e w)
      (fun x => x ≤ e ∧ st x = x ∧ From st sz e x ∧ w ≤ x ∧ (NoStuck st sz e → w < e → w < x) ∧
        ∃ cs, Reach st sz val e w x cs) := by
  simp only [findEnd, W.eq _ _ hw, Res.bind_ok]
  split
  · next h =>
    obtain rfl := (end_eq W hw).mp (by simpa using h)
    exact Out.ok ⟨hw, hst, hfrom, Nat.le_refl _, fun _ h => absurd h (by omega), [],
      .stop hw (by simpa using h)⟩
  · next h =>
    have hne : w ≠ e := fun he => h (by simpa using (end_eq W hw).mpr he)
    have hlt : w < e := by omega
    simp only [W.deref w hw, Res.bind_ok, hst]
    rw [W.inc w hlt, hst]
    simp only [Res.bind_ok]
    have hm := W.mono w hlt
    rw [hst] at hm
    have hroom := W.room w hlt
    rw [hst] at hroom
    refine (findEndLoop_out W fuel (val w) (w + sz w) hroom (hfrom.next hlt)).mono ?_ ?_
    · rintro ⟨h1, h2⟩
      have h3 := h1 w hfrom hlt
      exact ⟨h1, by omega⟩
    · rintro x ⟨h1, h2, h3, cs, h4⟩
      have hl := Reach.length W h4
      refine ⟨h1, h2, h3, by omega, ?_, ?_⟩
      · intro hn _
        have := hn w hfrom hlt
        omega
      · by_cases hh : st w ≤ x ∧ x < st w + sz w
        · exact ⟨[], .stop hw hh⟩
        · exact ⟨_, .step hlt hh (by rw [hst]; exact h4)⟩

theorem eqGLoop_out (gf fuel : Nat) (p x : Nat) (cs : List Int) (hp : p ≤ e)
    (h : Reach st sz val e p x cs) :
    Out (cs.length < fuel ∧ 0 < gf) (eqGLoop I gf x ⟨0, e, e, e⟩ fuel p) (fun r => r = false) := by
  induction fuel generalizing p cs with
  | zero => exact .inr ⟨rfl, by omega⟩
  | succ fuel ih =>
    simp only [eqGLoop, W.eq _ _ hp, Res.bind_ok]
    cases h with
    | stop _ hh => rw [if_pos (by simpa using hh)]; exact Out.ok rfl
    | step hlt hn hr =>
      rw [if_neg (by simpa using hn)]
      have h1 : ¬ (e ≤ p ∧ p < e + sz e) := by omega
      have h2 : e ≤ e ∧ e < e + sz e := by have := W.pos e; omega
      simp only [GIter.eqCp, W.eq _ _ (Nat.le_refl e), W.atEnd, Res.bind_ok, h1, decide_false,
        Bool.false_eq_true, if_false]
      cases gf with
      | zero => exact .inr ⟨rfl, by omega⟩
      | succ gf =>
        simp only [eqCpLoop, W.eq _ _ (Nat.le_refl e), W.atEnd, Res.bind_ok, h2, decide_true, if_true,
          Res.pure_eq, W.inc p hlt, Bool.false_eq_true, if_false, and_self]
        refine (ih _ _ (W.room p hlt) hr).mono ?_ (fun _ h => h)
        rintro ⟨a, b⟩
        exact ⟨by simpa using a, b⟩

/-- Comparison with `grapheme_end()`: true exactly at the end. -/
theorem eqG_out (fuel : Nat) (w x : Nat) (cs : List Int) (hw : w ≤ e)
    (h : Reach st sz val e w x cs) :
    Out (cs.length < fuel) (GIter.eqG I fuel ⟨0, e, w, x⟩ ⟨0, e, e, e⟩)
      (fun r => r = decide (w = e)) := by
  simp only [GIter.eqG, W.eq _ _ hw, Res.bind_ok]
  by_cases he : w = e
  · subst he
    have h2 : w ≤ w ∧ w < w + sz w := by have := W.pos w; omega
    simp only [GIter.eqCp, W.eq _ _ hw, W.atEnd, Res.bind_ok, h2, decide_true, if_true,
      Res.pure_eq, and_self]
    exact Out.ok rfl
  · have h1 : ¬ (st w ≤ e ∧ e < st w + sz w) := fun hh => he ((end_eq W hw).mp hh)
    simp only [h1, decide_false, Bool.false_eq_true, if_false, Res.pure_eq, Res.bind_ok, he]
    exact (eqGLoop_out W fuel fuel w x cs hw h).mono (fun h => ⟨h, by omega⟩) (fun _ h => h)

/-- `grapheme_end()` always stands at the end. -/
theorem graphemeEnd_out (fuel : Nat) : Out (0 < fuel) (graphemeEnd I fuel 0 e) (fun g => g = ⟨0, e, e, e⟩) := by
  have h2 : e ≤ e ∧ e < e + sz e := by have := W.pos e; omega
  have hend : findEnd I fuel e e = .ok e := by
    simp only [findEnd, W.eq _ _ (Nat.le_refl e), W.atEnd, Res.bind_ok, h2, decide_true, if_true,
      Res.pure_eq, and_self]
  have hstart : Out (0 < fuel) (findStart I fuel 0 e) (fun w => w = e) := by
    simp only [findStart, W.eq _ _ (Nat.le_refl e), W.atEnd, Res.bind_ok]
    by_cases he : e = 0
    · rw [if_pos (by subst he; simpa using W.pos 0)]
      exact Out.ok rfl
    · have hne : ¬ (e ≤ 0 ∧ 0 < e + sz e) := by omega
      simp only [hne, decide_false, Bool.false_eq_true, if_false]
      obtain ⟨q, hq, hd⟩ := W.dec (by omega)
      simp only [hd, Res.bind_ok, W.deref q hq]
      cases fuel with
      | zero => exact .inr ⟨rfl, by omega⟩
      | succ fuel =>
        simp only [findStartLoop, W.eq _ _ (Nat.le_refl e), W.atEnd, Res.bind_ok, hne, decide_false,
          Bool.false_eq_true, if_false, W.deref e (Nat.le_refl e), W.endVal, if_true, Res.pure_eq]
        exact Out.ok rfl
  simp only [graphemeEnd, gAt]
  refine hstart.bind ?_
  rintro w rfl
  rw [hend]
  exact Out.ok rfl

/-- The loop over graphemes. `Inv f w k o` is what holds with `f` rounds of fuel left at position `w`
with counter `k` and output `o`. -/
theorem filterLoop_out {β : Type} (fuel : Nat) (op : Grapheme → β → Res (Int × β))
    (Inv : Nat → Nat → Int → β → Prop)
    (hop : ∀ f w x cs k o, w < e → w ≤ x → x ≤ e → w + cs.length ≤ x →
      Traverses I.input w x cs → Inv (f + 1) w k o →
      Out (cs.length < fuel) (op ⟨w, x⟩ o) (fun r => addInt k r.1 = .ok (k + r.1) ∧ Inv f x (k + r.1) r.2))
    (f : Nat) (w x : Nat) (hw : w ≤ e) (hx : x ≤ e) (hst : st w = w) (hstx : st x = x)
    (hwx : w ≤ x) (hlt : NoStuck st sz e → w < e → w < x) (hfw : From st sz e w)
    (hfx : From st sz e x)
    (cs : List Int) (hr : Reach st sz val e w x cs) (k : Int) (o : β) (hk : Inv f w k o) :
    Out (NoStuck st sz e ∧ e < fuel ∧ e - w < f)
      (filterLoop (graphemeInput I fuel) op ⟨0, e, e, e⟩ f ⟨0, e, w, x⟩ o k)
      (fun r => From st sz e e ∧ ∃ f', Inv f' e r.1 r.2) := by
  induction f generalizing w x cs k o with
  | zero => exact .inr ⟨rfl, by omega⟩
  | succ f ih =>
    have hlen := Reach.length W hr
    simp only [filterLoop, graphemeInput]
    refine Out.bind (P := fun b => b = !decide (w = e)) ?_ ?_
    · refine Out.bind ((eqG_out W fuel w x cs hw hr).mono (fun h => by omega) (fun _ h => h)) ?_
      rintro b rfl
      exact Out.ok rfl
    · rintro b rfl
      by_cases he : w = e
      · subst he
        simp only [decide_true, Bool.not_true, Bool.false_eq_true, if_false]
        exact Out.ok ⟨hfw, f + 1, hk⟩
      · simp only [he, decide_false, Bool.not_false, if_true, Res.bind_ok]
        have hwe : w < e := by omega
        rw [hst] at hlen
        refine Out.bind ((hop f w x cs k o hwe hwx hx hlen (Reach.traverses W hr) hk).mono
          (fun h => by omega) (fun _ h => h)) ?_
        rintro ⟨d, o'⟩ ⟨ha, hk'⟩
        simp only [ha, Res.bind_ok, GIter.inc]
        have hf := findEnd_out W fuel x hx hstx hfx
        refine Out.bind (P := fun g => ∃ y, g = ⟨0, e, x, y⟩ ∧ y ≤ e ∧ st y = y ∧ From st sz e y ∧
          x ≤ y ∧ (NoStuck st sz e → x < e → x < y) ∧ ∃ cs, Reach st sz val e x y cs) ?_ ?_
        · refine Out.bind (hf.mono (fun h => ⟨h.1, by omega⟩) (fun _ h => h)) ?_
          intro y hy
          exact Out.ok ⟨y, rfl, hy⟩
        rintro g ⟨y, rfl, y1, y2, y3, y4, y5, cs', y6⟩
        refine (ih x y hx y1 hstx y2 y4 y5 hfx y3 cs' y6 (k + d) o' hk').mono ?_ (fun _ h => h)
        rintro ⟨h1, h2, h3⟩
        have := hlt h1 hwe
        exact ⟨h1, h2, by omega⟩

theorem filterGraphemes_out {β : Type} (fuel : Nat) (op : Grapheme → β → Res (Int × β))
    (Inv : Nat → Nat → Int → β → Prop)
    (hop : ∀ f w x cs k o, w < e → w ≤ x → x ≤ e → w + cs.length ≤ x →
      Traverses I.input w x cs → Inv (f + 1) w k o →
      Out (cs.length < fuel) (op ⟨w, x⟩ o) (fun r => addInt k r.1 = .ok (k + r.1) ∧ Inv f x (k + r.1) r.2))
    (o : β) (hk : Inv fuel 0 0 o) :
    Out (NoStuck st sz e ∧ e < fuel) (filterGraphemes I fuel 0 e o op)
      (fun r => From st sz e e ∧ ∃ f', Inv f' e r.1 r.2) := by
  have h0 : From st sz e 0 := ⟨0, rfl⟩
  simp only [filterGraphemes, graphemeBegin, gBegin]
  refine Out.bind (P := fun g => ∃ y, g = ⟨0, e, 0, y⟩ ∧ y ≤ e ∧ st y = y ∧ From st sz e y ∧
    0 ≤ y ∧ (NoStuck st sz e → 0 < e → 0 < y) ∧ ∃ cs, Reach st sz val e 0 y cs) ?_ ?_
  · refine Out.bind ((findEnd_out W fuel 0 (by omega) W.zero h0).mono (fun h => ⟨h.1, by omega⟩)
      (fun _ h => h)) ?_
    intro y hy
    exact Out.ok ⟨y, rfl, hy⟩
  rintro g ⟨y, rfl, y1, y2, y3, y4, y5, cs', y6⟩
  refine Out.bind ((graphemeEnd_out W fuel).mono (fun h => by omega) (fun _ h => h)) ?_
  rintro z rfl
  simp only [filter]
  exact (filterLoop_out W fuel op Inv hop fuel 0 y (by omega) y1 W.zero y2 y4 y5 h0 y3 cs' y6 0 o
    hk).mono (fun h => ⟨h.1, h.2, by omega⟩) (fun _ h => h)

end

/-! ### UTF-8 iterators over tame text -/

/-- The position `p` stands for. -/
def restAt (m : Mem) (p : Nat) : Nat := match rewind m p with | .ok s => s | _ => p
/-- The number of octets claimed there. -/
def claimAt (m : Mem) (p : Nat) : Nat := cpSize (m.getD (restAt m p) 0)
/-- What dereferencing yields. -/
def valAt (m : Mem) (p : Nat) : Int := match cur m p with | .ok r => r.1 | _ => 0

theorem cpSize_room {t : List Octet} (T : Tame t) {s : Nat} {l : Octet} (hl : t[s]? = some l) :
    s + cpSize l ≤ t.length := by
  have hlt := (List.getElem?_eq_some_iff.mp hl).1
  have hsz : ∀ o : UInt8, cpSize o = if o.toNat < 0xC0 then 1 else leadingOnes o := by
    apply forall_octet; decide +kernel
  have := T.room s l hl
  rw [hsz]
  split
  · omega
  · next h =>
    have : ¬ (t.length - s < leadingOnes l) := fun h' => this ⟨by omega, h'⟩
    omega

theorem tame_head {t : List Octet} (T : Tame t) : ∃ o, (t ++ [0])[0]? = some o ∧ ¬ IsContinuation o := by
  cases t with
  | nil => exact ⟨0, rfl, by decide⟩
  | cons x xs => exact ⟨x, rfl, T.first x rfl⟩

theorem tame_at {t : List Octet} (T : Tame t) (p : Nat) (hp : p ≤ t.length) :
    ∃ l, rewind (t ++ [0]) p = .ok (restAt (t ++ [0]) p) ∧ restAt (t ++ [0]) p ≤ p ∧
      (t ++ [0])[restAt (t ++ [0]) p]? = some l ∧ ¬ IsContinuation l ∧ claimAt (t ++ [0]) p = cpSize l ∧
      (restAt (t ++ [0]) p < t.length → restAt (t ++ [0]) p + cpSize l ≤ t.length) ∧
      (restAt (t ++ [0]) p = t.length → l = 0) ∧ l ≠ 0xFF ∧
      (∀ k, restAt (t ++ [0]) p < k → k ≤ p → ∃ c, (t ++ [0])[k]? = some c ∧ IsContinuation c) := by
  obtain ⟨o, ho, hoc⟩ := tame_head T
  obtain ⟨s, l, h1, h2, h3, h4, h5, h6⟩ := rewind_exists ho hoc (Nat.zero_le p) (by simp; omega)
  have hs : restAt (t ++ [0]) p = s := by simp only [restAt, h1]
  rw [hs]
  refine ⟨l, h1, h3, h4, h5, ?_, ?_, ?_, ?_, h6⟩
  · simp only [claimAt, hs, List.getD_eq_getElem?_getD, h4, Option.getD_some]
  · intro h
    rw [List.getElem?_append_left h] at h4
    exact cpSize_room T h4
  · intro h
    subst h
    simpa using h4.symm
  · rcases Nat.lt_or_ge s t.length with h | h
    · rw [List.getElem?_append_left h] at h4
      exact T.noFF l (List.mem_of_getElem? h4)
    · obtain rfl : s = t.length := by omega
      have : l = 0 := by simpa using h4.symm
      subst this; decide

theorem tame_wk {t : List Octet} (T : Tame t) :
    Wk (utf8Iter (t ++ [0])) (restAt (t ++ [0])) (claimAt (t ++ [0])) (valAt (t ++ [0])) t.length := by
  have hz : cpSize 0 = 1 := by decide +kernel
  have hlen : (t ++ [0]).length = t.length + 1 := by simp
  have hidem : ∀ p, p ≤ t.length → restAt (t ++ [0]) (restAt (t ++ [0]) p) = restAt (t ++ [0]) p := by
    intro p hp
    obtain ⟨l, h1, h2, h3, h4, h5, h6, h7, h8, h9⟩ := tame_at T p hp
    have := rewind_stop h3 h4
    conv => lhs; rw [restAt, this]
  have hend : restAt (t ++ [0]) t.length = t.length := by
    have h : (t ++ [0])[t.length]? = some 0 := by simp
    have := rewind_stop h (by decide)
    rw [restAt, this]
  have hroom : ∀ p, p < t.length → restAt (t ++ [0]) p + claimAt (t ++ [0]) p ≤ t.length := by
    intro p hp
    obtain ⟨l, h1, h2, h3, h4, h5, h6, h7, h8, h9⟩ := tame_at T p (by omega)
    rw [h5]; exact h6 (by omega)
  have hroom' : ∀ p, p ≤ t.length → restAt (t ++ [0]) p + claimAt (t ++ [0]) p ≤ (t ++ [0]).length := by
    intro p hp
    obtain ⟨l, h1, h2, h3, h4, h5, h6, h7, h8, h9⟩ := tame_at T p (by omega)
    rcases Nat.lt_or_ge p t.length with h | h
    · have := hroom p h; omega
    · obtain rfl : p = t.length := by omega
      rw [h5, h7 hend, hz, hend]; omega
  refine
    { le := ?_, idem := hidem, zero := ?_, atEnd := hend, szst := ?_, pos := ?_, room := hroom,
      mono := ?_, eq := ?_, deref := ?_, inc := ?_, dec := ?_, endVal := ?_ }
  · intro p hp
    obtain ⟨l, h1, h2, _⟩ := tame_at T p hp
    exact h2
  · obtain ⟨l, h1, h2, _⟩ := tame_at T 0 (by omega)
    omega
  · intro p hp
    rw [claimAt, claimAt, hidem p hp]
  · intro p; exact cpSize_pos _
  · intro p hp
    obtain ⟨l, h1, h2, h3, h4, h5, h6, h7, h8, h9⟩ := tame_at T p (by omega)
    obtain ⟨s, l', g1, g2, g3, g4, g5, g6⟩ := rewind_exists h3 h4
      (show restAt (t ++ [0]) p ≤ restAt (t ++ [0]) p + claimAt (t ++ [0]) p by omega)
      (by have := hroom p hp; omega)
    conv => rhs; rw [restAt, g1]
    exact g2
  · intro p q hp
    obtain ⟨l, h1, h2, h3, h4, h5, h6, h7, h8, h9⟩ := tame_at T p hp
    show iterEq _ p q = _
    simp only [iterEq, h1, rd_some h3, Res.bind_ok]
    have := hroom' p hp
    rw [h5] at this ⊢
    exact eqLoop_eq _ q _ _ this
  · intro p hp
    obtain ⟨l, h1, h2, h3, h4, h5, h6, h7, h8, h9⟩ := tame_at T p hp
    have := hroom' p hp
    rw [h5] at this
    obtain ⟨c, q, hc, hq⟩ := cur_ok h1 h3 (by omega) h8 this
    show cur _ p = _
    have hqs : q = restAt (t ++ [0]) p := by
      rcases hq with h | h
      · exact h
      · subst h
        rcases cur_cases (t ++ [0]) q with ⟨r, hr, hr2⟩ | hub
        · simp only [cur] at hc
          have hrd := (rd_some (List.getElem?_eq_getElem (show q < (t ++ [0]).length by omega)))
          rw [hrd, Res.bind_ok] at hc
          split at hc
          · next h7b =>
            have : ¬ IsContinuation (t ++ [0])[q] := by
              have key : ∀ o : UInt8, is7bit o = true → ¬ IsContinuation o := by
                apply forall_octet; decide +kernel
              exact key _ h7b
            have := rewind_stop (List.getElem?_eq_getElem (show q < (t ++ [0]).length by omega)) this
            rw [h1] at this
            exact (Res.ok.inj this).symm
          · rw [h1, Res.bind_ok, rd_some h3, Res.bind_ok] at hc
            obtain ⟨mk, _, hc⟩ := Res.bind_eq_ok.mp hc
            obtain ⟨v, _, hc⟩ := Res.bind_eq_ok.mp hc
            simp only [Res.pure_eq, Res.ok.injEq, Prod.mk.injEq] at hc
            exact hc.2.symm
        · rw [hub] at hc; cases hc
    rw [valAt, hc, hqs]
  · intro p hp
    obtain ⟨l, h1, h2, h3, h4, h5, h6, h7, h8, h9⟩ := tame_at T p (by omega)
    show fwd _ p = _
    have := hroom p hp
    rw [h5] at this ⊢
    simp only [fwd, h1, rd_some h3, Res.bind_ok, adv]
    rw [if_pos (by omega)]
  · intro he
    obtain ⟨l, h1, h2, h3, h4, h5, h6, h7, h8, h9⟩ := tame_at T t.length (Nat.le_refl _)
    obtain ⟨l', g1, g2, _⟩ := tame_at T (t.length - 1) (by omega)
    refine ⟨restAt (t ++ [0]) (t.length - 1), by omega, ?_⟩
    show bwd _ _ = _
    obtain ⟨n, hn⟩ : ∃ n, t.length = n + 1 := ⟨t.length - 1, by omega⟩
    rw [hend, hn] at h1
    rw [hn, Nat.add_sub_cancel] at g1 ⊢
    simp only [bwd, h1, Res.bind_ok, retreat, g1]
  · intro a
    have : valAt (t ++ [0]) t.length = 0 := by
      have h : (t ++ [0])[t.length]? = some 0 := by simp
      have h0 : is7bit 0 = true := by decide
      have h1 : (promote 0).toInt = 0 := by decide
      simp only [valAt, cur, rd_some h, Res.bind_ok, h0, if_true, Res.pure_eq, h1]
    rw [this]; exact brk_zero a

theorem tame_stuck {t : List Octet} (T : Tame t) {s : Nat} {l : Octet} (hs : t[s]? = some l)
    (hl : ¬ IsContinuation l) :
    Stuck t s ↔ restAt (t ++ [0]) (s + claimAt (t ++ [0]) s) = s := by
  have hlt := (List.getElem?_eq_some_iff.mp hs).1
  have hm : (t ++ [0])[s]? = some l := by rw [List.getElem?_append_left hlt]; exact hs
  have hst : restAt (t ++ [0]) s = s := by rw [restAt, rewind_stop hm hl]
  have hsz : claimAt (t ++ [0]) s = cpSize l := by
    simp only [claimAt, hst, List.getD_eq_getElem?_getD, hm, Option.getD_some]
  have hcl := cpSize_claimed l hl
  have hroom := cpSize_room T hs
  have hpos := cpSize_pos l
  rw [hsz]
  constructor
  · rintro ⟨l', h1, h2⟩
    rw [hs] at h1; obtain rfl := Option.some.inj h1
    have : rewind (t ++ [0]) (s + cpSize l) = .ok s := by
      refine rewind_to hm hl (by omega) ?_
      intro k hk1 hk2
      obtain ⟨c, hc1, hc2⟩ := h2 k hk1 (by omega)
      exact ⟨c, by rw [List.getElem?_append_left (List.getElem?_eq_some_iff.mp hc1).1]; exact hc1, hc2⟩
    rw [restAt, this]
  · intro h
    refine ⟨l, hs, ?_⟩
    obtain ⟨l', h1, h2, h3, h4, h5, h6, h7, h8, h9⟩ := tame_at T (s + cpSize l) hroom
    rw [h] at h9
    intro k hk1 hk2
    obtain ⟨c, hc1, hc2⟩ := h9 k hk1 (by omega)
    refine ⟨c, ?_, hc2⟩
    rcases Nat.lt_or_ge k t.length with hk | hk
    · rwa [List.getElem?_append_left hk] at hc1
    · obtain rfl : k = t.length := by omega
      simp at hc1; subst hc1; exact absurd hc2 (by decide)

theorem tame_from {t : List Octet} (T : Tame t) {s : Nat} :
    s < t.length → From (restAt (t ++ [0])) (claimAt (t ++ [0])) t.length s → Rests t s := by
  rintro hlt ⟨n, hn⟩
  induction n generalizing s with
  | zero => simp only [hops] at hn; subst hn; exact .start
  | succ n ih =>
    rw [hops_succ] at hn
    generalize hq : hops (restAt (t ++ [0])) (claimAt (t ++ [0])) t.length n 0 = q at hn
    rw [hopOne] at hn
    split at hn
    · next hqlt =>
      have hR := ih hqlt hq.symm
      obtain ⟨l, hl⟩ : ∃ l, t[q]? = some l := ⟨t[q], List.getElem?_eq_getElem hqlt⟩
      have hnc : ¬ IsContinuation l := by
        cases hR with
        | start => exact T.first l (by rw [List.head?_eq_getElem?]; exact hl)
        | step a1 a2 a3 a4 a5 a6 a7 => rw [hl] at a5; obtain rfl := Option.some.inj a5; exact a6
      by_cases hsq : s = q
      · subst hsq; exact hR
      have hm : (t ++ [0])[q]? = some l := by rw [List.getElem?_append_left hqlt]; exact hl
      have hst : restAt (t ++ [0]) q = q := by rw [restAt, rewind_stop hm hnc]
      have hsz : claimAt (t ++ [0]) q = cpSize l := by
        simp only [claimAt, hst, List.getD_eq_getElem?_getD, hm, Option.getD_some]
      have hmono := (tame_wk T).mono q hqlt
      have hcl := cpSize_claimed l hnc
      have hroom := cpSize_room T hl
      rw [hst, hsz] at hmono
      rw [hsz] at hn
      obtain ⟨l', h1, h2, h3, h4, h5, h6, h7, h8, h9⟩ := tame_at T (q + cpSize l) hroom
      rw [← hn] at h2 h3 h9 hmono
      rw [List.getElem?_append_left hlt] at h3
      refine .step hR hl (by omega) (by omega) h3 h4 ?_
      intro k hk1 hk2
      obtain ⟨c, hc1, hc2⟩ := h9 k hk1 (by omega)
      refine ⟨c, ?_, hc2⟩
      rcases Nat.lt_or_ge k t.length with hk | hk
      · rwa [List.getElem?_append_left hk] at hc1
      · obtain rfl : k = t.length := by omega
        simp at hc1; subst hc1; exact absurd hc2 (by decide)
    · next h => subst hn; omega

theorem rests_from {t : List Octet} (T : Tame t) {s : Nat} (h : Rests t s) :
    From (restAt (t ++ [0])) (claimAt (t ++ [0])) t.length s := by
  induction h with
  | start => exact ⟨0, rfl⟩
  | @step s s' l o h1 h2 h3 h4 h5 h6 h7 ih =>
    have hlt := (List.getElem?_eq_some_iff.mp h2).1
    have hlt' := (List.getElem?_eq_some_iff.mp h5).1
    have hnc : ¬ IsContinuation l := by
      cases h1 with
      | start => exact T.first l (by rw [List.head?_eq_getElem?]; exact h2)
      | step a1 a2 a3 a4 a5 a6 a7 => rw [h2] at a5; obtain rfl := Option.some.inj a5; exact a6
    have hm : (t ++ [0])[s]? = some l := by rw [List.getElem?_append_left hlt]; exact h2
    have hst : restAt (t ++ [0]) s = s := by rw [restAt, rewind_stop hm hnc]
    have hsz : claimAt (t ++ [0]) s = cpSize l := by
      simp only [claimAt, hst, List.getD_eq_getElem?_getD, hm, Option.getD_some]
    have hcl := cpSize_claimed l hnc
    have := ih.next hlt
    rw [hsz] at this
    have hr : rewind (t ++ [0]) (s + cpSize l) = .ok s' := by
      refine rewind_to (by rw [List.getElem?_append_left hlt']; exact h5) h6 (by omega) ?_
      intro k hk1 hk2
      obtain ⟨c, hc1, hc2⟩ := h7 k hk1 (by omega)
      exact ⟨c, by rw [List.getElem?_append_left (List.getElem?_eq_some_iff.mp hc1).1]; exact hc1, hc2⟩
    rw [restAt, hr] at this
    exact this

theorem tame_noStuck {t : List Octet} (T : Tame t) :
    NoStuck (restAt (t ++ [0])) (claimAt (t ++ [0])) t.length ↔ ∀ s, Rests t s → ¬ Stuck t s := by
  have hnc : ∀ {s l}, Rests t s → t[s]? = some l → ¬ IsContinuation l := by
    intro s l hR hl
    cases hR with
    | start => exact T.first l (by rw [List.head?_eq_getElem?]; exact hl)
    | step a1 a2 a3 a4 a5 a6 a7 => rw [hl] at a5; obtain rfl := Option.some.inj a5; exact a6
  constructor
  · intro h s hR hS
    obtain ⟨l, hl, _⟩ := id hS
    exact h s (rests_from T hR) (List.getElem?_eq_some_iff.mp hl).1
      ((tame_stuck T hl (hnc hR hl)).mp hS)
  · intro h s hF hlt heq
    have hR := tame_from T hlt hF
    have hl := List.getElem?_eq_getElem hlt
    exact h s hR ((tame_stuck T hl (hnc hR hl)).mpr heq)

/-! ### The operations -/

theorem filterLoop_short (it : InputIter σ α) (cnt : α → Int) (nxt : α → β → β)
    (op : α → β → Res (Int × β)) {s t : σ} {xs : List α} (h : Traverses it s t xs)
    (hop : ∀ x ∈ xs, ∀ o, op x o = .ok (cnt x, nxt x o)) (hcnt : ∀ x ∈ xs, 0 ≤ cnt x)
    (fuel : Nat) (hf : fuel ≤ xs.length) (out : β) (k : Int) (hk : 0 ≤ k)
    (hb : k + (xs.map cnt).sum ≤ 2147483647) :
    filterLoop it op t fuel s out k = .tmo := by
  induction h generalizing fuel out k with
  | done _ => simp only [List.length_nil, Nat.le_zero] at hf; subst hf; rfl
  | @step s s' s'' t x xs hne hd hi hr ih =>
    cases fuel with
    | zero => rfl
    | succ fuel =>
      have hnn : ∀ l : List α, (∀ g ∈ l, 0 ≤ cnt g) → 0 ≤ (l.map cnt).sum := by
        intro l
        induction l with
        | nil => intro _; simp
        | cons x l ihl =>
          intro h
          have := h x (by simp)
          have := ihl (fun y hy => h y (by simp [hy]))
          rw [List.map_cons, List.sum_cons]; omega
      have h0 := hnn xs (fun y hy => hcnt y (by simp [hy]))
      have hx := hcnt x (by simp)
      rw [List.map_cons, List.sum_cons] at hb
      simp only [filterLoop, hne, hd, hi, Res.bind_ok, if_true, hop x (by simp)]
      rw [addInt_ok (by omega) (by omega)]
      exact ih (fun y hy => hop y (by simp [hy])) (fun y hy => hcnt y (by simp [hy])) fuel
        (by simpa using hf) _ _ (by omega) (by omega)

theorem decompose_length_le {map} (G : GoodMap map) (cs : List Int) :
    (decompose map cs).length ≤ 20 * cs.length := by
  induction cs with
  | nil => simp [decompose]
  | cons c cs ih =>
    have := G.len c
    rw [decompose_cons, List.length_append, List.length_cons]; omega

theorem filter_decompose_out {map} (G : GoodMap map) {it : InputIter σ Int} {s t : σ} {cs : List Int}
    (h : Traverses it s t cs) (fuel : Nat) (hb : (decompose map cs).length ≤ 2147483647) :
    Out (cs.length < fuel) (filter it fuel s t [] (codepointDecomposition map))
      (fun r => r = (((decompose map cs).length : Int), decompose map cs)) := by
  rcases Nat.lt_or_ge cs.length fuel with hf | hf
  · rw [filter_decompose G h fuel hf [] hb]
    exact Out.ok rfl
  · refine .inr ⟨?_, by omega⟩
    exact filterLoop_short it (fun x => ((full map x).length : Int)) (fun x o => o ++ full map x) _ h
      (fun x _ o => codepointDecomposition_eq G x o) (fun x _ => by omega) fuel hf [] 0 (by omega)
      (by rw [sum_length_decompose]; omega)

/-- A form that, applied to a grapheme with the codepoints `cs`, appends at most `20 * cs.length`
codepoints and returns their number. -/
def Modest (form : CpIter → Nat → Grapheme → List Int → Res (Int × List Int)) : Prop :=
  ∀ (I : CpIter) (fuel w x : Nat) (cs : List Int), Traverses I.input w x cs →
    20 * cs.length ≤ 2147483647 → ∀ o,
    Out (cs.length < fuel) (form I fuel ⟨w, x⟩ o)
      (fun r => ∃ d : List Int, d.length ≤ 20 * cs.length ∧ r = ((d.length : Int), o ++ d))

theorem modest_D {sort : SortFn} (hs : ConformingSort sort) :
    Modest (normalizationFormD sort append32) := by
  intro I fuel w x cs h hb o
  have hl := decompose_length_le goodD cs
  simp only [normalizationFormD]
  refine Out.bind (filter_decompose_out goodD h fuel (by omega)) ?_
  rintro _ rfl
  refine Out.ok ⟨sort canonicalCombiningOrder (decompose decResolve cs), ?_, ?_⟩
  · rw [(hs.perm _).length_eq]; exact hl
  · rw [(hs.perm _).length_eq]

theorem modest_KD {sort : SortFn} (hs : ConformingSort sort) :
    Modest (normalizationFormKD sort append32) := by
  intro I fuel w x cs h hb o
  have hl := decompose_length_le goodK cs
  simp only [normalizationFormKD]
  refine Out.bind (filter_decompose_out goodK h fuel (by omega)) ?_
  rintro _ rfl
  refine Out.ok ⟨sort canonicalCombiningOrder (decompose kdecResolve cs), ?_, ?_⟩
  · rw [(hs.perm _).length_eq]; exact hl
  · rw [(hs.perm _).length_eq]

theorem modest_C {sort : SortFn} (hs : ConformingSort sort) :
    Modest (normalizationFormC sort append32) := by
  intro I fuel w x cs h hb o
  have hl := decompose_length_le goodD cs
  simp only [normalizationFormC]
  refine Out.bind (filter_decompose_out goodD h fuel (by omega)) ?_
  rintro _ rfl
  have := composed_tail hs append32 (decompose decResolve cs) (by omega) o
  simp only [append32, Res.bind_ok] at this ⊢
  rw [this]
  have h1 := compose_length_le compResolve (sort canonicalCombiningOrder (decompose decResolve cs))
  rw [(hs.perm _).length_eq] at h1
  exact Out.ok ⟨_, by omega, rfl⟩

theorem modest_KC {sort : SortFn} (hs : ConformingSort sort) :
    Modest (normalizationFormKC sort append32) := by
  intro I fuel w x cs h hb o
  have hl := decompose_length_le goodK cs
  simp only [normalizationFormKC]
  refine Out.bind (filter_decompose_out goodK h fuel (by omega)) ?_
  rintro _ rfl
  have := composed_tail hs append32 (decompose kdecResolve cs) (by omega) o
  simp only [append32, Res.bind_ok] at this ⊢
  rw [this]
  have h1 := compose_length_le compResolve (sort canonicalCombiningOrder (decompose kdecResolve cs))
  rw [(hs.perm _).length_eq] at h1
  exact Out.ok ⟨_, by omega, rfl⟩

theorem normalizeText_out {form} (hform : Modest form) {t : List Octet} (T : Tame t)
    (hlen : 20 * t.length ≤ 2147483647) (fuel : Nat) :
    Out ((∀ s, Rests t s → ¬ Stuck t s) ∧ t.length < fuel)
      (normalizeText form (utf8Iter (t ++ [0])) fuel 0 t.length [])
      (fun r => (∀ s, Rests t s → ¬ Stuck t s) ∧ r.1 = r.2.length ∧ r.2.length ≤ 20 * t.length) := by
  simp only [← tame_noStuck T]
  refine (filterGraphemes_out (tame_wk T) fuel _
    (fun _ w k o => k = o.length ∧ o.length ≤ 20 * w) ?_ [] ⟨rfl, by simp⟩).mono (fun h => h) ?_
  · rintro f w x cs k o hw hwx hx hl htr ⟨hk, hk2⟩
    refine (hform _ fuel w x cs htr (by omega) o).mono (fun h => h) ?_
    rintro _ ⟨d, hd, rfl⟩
    refine ⟨addInt_ok ?_ ?_, ?_, ?_⟩
    · simp only; omega
    · simp only; omega
    · simp only [List.length_append]; omega
    · simp only [List.length_append]; omega
  · rintro ⟨k, o⟩ ⟨h1, _, h2, h3⟩
    exact ⟨noStuck_of_end h1, h2, h3⟩

theorem collect_out {t : List Octet} (T : Tame t) (hlen : t.length ≤ 2147483647) (fuel : Nat)
    (hf : fuel ≤ 2147483647) :
    Out ((∀ s, Rests t s → ¬ Stuck t s) ∧ t.length < fuel)
      (filterGraphemes (utf8Iter (t ++ [0])) fuel 0 t.length [] (collectGrapheme (utf8Iter (t ++ [0])) fuel))
      (fun r => (∀ s, Rests t s → ¬ Stuck t s) ∧ r.1 = r.2.length ∧ r.2.flatten.length ≤ t.length) := by
  simp only [← tame_noStuck T]
  refine (filterGraphemes_out (tame_wk T) fuel _
    (fun f w k o => k = o.length ∧ o.flatten.length ≤ w ∧ k + f ≤ fuel) ?_ [] ⟨rfl, by simp, by simp⟩).mono
      (fun h => h) ?_
  · rintro f w x cs k o hw hwx hx hl htr ⟨hk, hk2, hk3⟩
    simp only [collectGrapheme]
    refine Out.bind (P := fun r => r.2 = cs) ?_ ?_
    · rcases Nat.lt_or_ge cs.length fuel with hcf | hcf
      · rw [filter_eq _ _ htr fuel hcf]
        rw [foldlM_accum_inv (fun _ => True) (fun _ => 1) (fun x o => o ++ [x]) _ cs
          (fun x _ o _ => ⟨rfl, trivial⟩) (fun _ _ => by omega) 0 [] trivial (by omega)
          (by rw [sum_ones]; omega)]
        refine Out.ok ?_
        show List.foldl _ [] cs = cs
        rw [foldl_append_flatMap (f := fun x => [x])]
        simp
      · refine .inr ⟨?_, by omega⟩
        exact filterLoop_short _ (fun _ => 1) (fun x o => o ++ [x]) _ htr (fun x _ o => rfl)
          (fun _ _ => by omega) fuel hcf [] 0 (by omega) (by rw [sum_ones]; omega)
    · rintro ⟨j, cs'⟩ hj
      replace hj : cs' = cs := hj
      subst hj
      refine Out.ok ⟨addInt_ok (by simp only; omega) (by simp only; omega), ?_, ?_, ?_⟩
      · simp only [List.length_append, List.length_cons, List.length_nil]; omega
      · simp only [List.flatten_append, List.flatten_cons, List.flatten_nil, List.append_nil,
          List.length_append]; omega
      · simp only; omega
  · rintro ⟨k, o⟩ ⟨h1, _, h2, h3, _⟩
    exact ⟨noStuck_of_end h1, h2, h3⟩

end U5e
