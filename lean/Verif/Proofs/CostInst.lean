import Verif.Proofs.CostNormalize
import Verif.Proofs.GraphemeMore
/-! The work on UTF-8 and utf32ne texts. -/
namespace U5e
open Spec
namespace Work

/-! ### One operation on valid text -/

theorem rewind_unit_cost {m : Mem} {p : Nat} {u : List Octet} (hu : IsUnit u) (hm : Holds m p u)
    {i : Nat} (hi : i < u.length) : (rewind m (p + i)).res = .ok p ∧ (rewind m (p + i)).reads = i + 1 := by
  have h : (rewind m (p + i)).res = .ok p := by rw [rewind_res]; exact rewind_unit hu hm hi
  refine ⟨h, ?_⟩
  rw [(rewind_reads h).2]; omega

theorem fwd_unit_cost {m : Mem} {p : Nat} {u : List Octet} (hu : IsUnit u) (hm : Holds m p u) : (fwd m p).reads = 2 := by
  obtain ⟨l, hl, _⟩ := rd_lead hu hm
  obtain ⟨h1, h2⟩ := rewind_unit_cost hu hm hu.length_pos
  rw [Nat.add_zero] at h1 h2
  rw [fwd, reads_ok h1, reads_ok (a := l) hl, h2]; simp

theorem eq_unit_cost {m : Mem} {p : Nat} {u : List Octet} (hu : IsUnit u) (hm : Holds m p u) (q : Nat) :
    (iterEq m p q).reads = 2 := by
  obtain ⟨l, hl, _⟩ := rd_lead hu hm
  obtain ⟨h1, h2⟩ := rewind_unit_cost hu hm hu.length_pos
  rw [Nat.add_zero] at h1 h2
  rw [iterEq, reads_ok h1, reads_ok (a := l) hl, h2]; simp

theorem decLoop_ok_cost {m : Mem} (n q : Nat) (v : BitVec 32) {w : BitVec 32} (h : (decLoop m n q v).res = .ok w) :
    (decLoop m n q v).reads = n := by
  induction n generalizing q v with
  | zero => simp [decLoop]
  | succ n ih =>
    rw [decLoop] at h ⊢
    rw [res_bind] at h
    obtain ⟨q', hq, h⟩ := Res.bind_eq_ok.mp h
    rw [reads_ok hq]
    rw [res_bind] at h
    obtain ⟨o, ho, h⟩ := Res.bind_eq_ok.mp h
    rw [reads_ok ho, ih _ _ h]; simp; omega

/-- Decoding a codepoint of one octet reads it once; a longer one reads its first octet three times and the others
once. -/
theorem cur_unit_cost {m : Mem} {p : Nat} {u : List Octet} (hu : IsUnit u) (hm : Holds m p u) :
    (cur m p).reads = if u.length = 1 then 1 else u.length + 2 := by
  obtain ⟨l, hl, _, ha, hs⟩ := rd_lead hu hm
  obtain ⟨h1, h2⟩ := rewind_unit_cost hu hm hu.length_pos
  rw [Nat.add_zero] at h1 h2
  have hpos := hu.length_pos
  have hc := cur_unit hu hm hu.length_pos
  rw [Nat.add_zero, ← cur_res] at hc
  rw [cur] at hc ⊢
  rw [res_bind, show (rd m p).res = .ok l from hl, Res.bind_ok, res_ite] at hc
  rw [reads_ok (a := l) hl]
  by_cases h7 : is7bit l = true
  · rw [if_pos h7]
    have := (is7bit_iff l).mp h7
    have : announced l = 1 := by simp [announced, this]
    rw [if_pos (by omega)]; simp
  · rw [if_neg h7] at hc ⊢
    have h1' : u.length ≠ 1 := by
      intro hlen
      apply h7
      rw [is7bit_iff]
      rw [hlen] at ha
      simp only [announced] at ha
      split at ha
      · assumption
      · repeat' (split at ha)
        all_goals omega
    rw [if_neg h1']
    rw [res_bind, h1, Res.bind_ok, res_bind, show (rd m p).res = .ok l from hl, Res.bind_ok, res_bind] at hc
    obtain ⟨mask, hmask, hc⟩ := Res.bind_eq_ok.mp hc
    rw [res_bind] at hc
    obtain ⟨v, hv, _⟩ := Res.bind_eq_ok.mp hc
    rw [reads_ok h1, reads_ok (a := l) hl, reads_ok hmask, reads_ok hv, decLoop_ok_cost _ _ _ hv, h2, hs]
    simp; omega

theorem bwd_unit_cost {m : Mem} {p : Nat} {u v : List Octet} (hu : IsUnit u) (hm : Holds m p u) (hv : IsUnit v)
    (hm2 : Holds m (p + u.length) v) : (bwd m (p + u.length)).reads = u.length + 1 := by
  obtain ⟨h1, h2⟩ := rewind_unit_cost hv hm2 hv.length_pos
  rw [Nat.add_zero] at h1 h2
  have hl := hu.length_pos
  obtain ⟨j, hj⟩ : ∃ j, u.length = j + 1 := ⟨u.length - 1, by omega⟩
  obtain ⟨_, h4⟩ := rewind_unit_cost hu hm (i := j) (by omega)
  rw [bwd, reads_ok h1, reads_ok (a := p + j) (by rw [res_free, hj]; rfl), h2, h4]
  simp; omega

theorem unit_le_six {u : List Octet} (hu : IsUnit u) : u.length ≤ 6 := by
  obtain ⟨l, _, ha, _⟩ := hu.lead
  rw [← ha]
  simp only [announced]
  repeat' split
  all_goals omega

/-- All positions of valid UTF-8 text followed by a valid codepoint. -/
theorem cheap_utf8 (m : Mem) (us : List (List Octet)) (hu : WellShaped us) (p : Nat) (hm : Holds m p us.flatten)
    (t : List Octet) (ht : IsUnit t) (hmt : Holds m (p + us.flatten.length) t) :
    Cheap (utf8Iter m) (upos p us) us.length 8 2 7 2 ∧
    (∀ j, j < us.length → ((utf8Iter m).inc (upos p us j)).reads = 2) ∧
    ∀ j q, j ≤ us.length → ((utf8Iter m).eq (upos p us j) q).reads = 2 := by
  have hat : ∀ i, i ≤ us.length → ∃ v, IsUnit v ∧ Holds m (upos p us i) v := by
    intro i hi
    rcases Nat.lt_or_eq_of_le hi with h | h
    · exact ⟨us[i], hu _ (List.getElem_mem h), holds_at hm i _ (List.getElem?_eq_getElem h)⟩
    · subst h; rw [upos_length]; exact ⟨t, ht, hmt⟩
  have hinc : ∀ j, j < us.length → ((utf8Iter m).inc (upos p us j)).reads = 2 := by
    intro j hj
    obtain ⟨v, hv, hmv⟩ := hat j (by omega)
    exact fwd_unit_cost hv hmv
  have heq : ∀ j q, j ≤ us.length → ((utf8Iter m).eq (upos p us j) q).reads = 2 := by
    intro j q hj
    obtain ⟨v, hv, hmv⟩ := hat j hj
    exact eq_unit_cost hv hmv q
  refine ⟨⟨fun j hj => ?_, fun j hj => Nat.le_of_eq (hinc j hj), fun j hj => ?_, fun j q hj => Nat.le_of_eq (heq j q hj)⟩, hinc, heq⟩
  · obtain ⟨v, hv, hmv⟩ := hat j hj
    show (cur m _).reads ≤ 8
    rw [cur_unit_cost hv hmv]
    have := unit_le_six hv
    split <;> omega
  · have hui : us[j]? = some us[j] := List.getElem?_eq_getElem hj
    have hU := hu us[j] (List.getElem_mem hj)
    obtain ⟨v, hv, hmv⟩ := hat (j + 1) (by omega)
    rw [upos_succ p us j _ hui] at hmv ⊢
    show (bwd m _).reads ≤ 7
    rw [bwd_unit_cost hU (holds_at hm j _ hui) hv hmv]
    have := unit_le_six hU
    omega

theorem cheap_utf32 (m : List Int) (pos : Nat → Nat) (n : Nat) : Cheap (utf32Iter m) pos n 1 0 0 0 :=
  ⟨fun _ _ => Nat.le_refl _, fun _ _ => Nat.le_refl _, fun _ _ => Nat.le_refl _, fun _ _ _ => Nat.le_refl _⟩

/-! ### Walking over valid text -/

/-- Reads of one round of the loop: compare, decode, advance. -/
def roundReads (u : List Octet) : Nat := if u.length = 1 then 5 else u.length + 6

theorem walk_units_cost (m : Mem) : ∀ (us : List (List Octet)), WellShaped us → ∀ (p : Nat), Holds m p us.flatten →
    ∀ o, m[p + us.flatten.length]? = some o → ¬ IsContinuation o → ∀ fuel, us.length < fuel →
    (walk m (p + us.flatten.length) fuel p).reads = (us.map roundReads).sum + 2 := by
  intro us
  induction us with
  | nil =>
    intro _ p _ o ho hc fuel hf
    cases fuel with
    | zero => simp at hf
    | succ f =>
      simp only [List.flatten_nil, List.length_nil, Nat.add_zero] at ho ⊢
      rw [walk]
      have h := iterEq_self ho hc
      rw [reads_ok (a := true) (by rw [iterEq_res]; exact h), if_pos rfl]
      have hr : (rewind m p).res = .ok p := by rw [rewind_res]; exact rewind_stop ho hc
      rw [iterEq, reads_ok hr, reads_ok (a := o) (by rw [res_rd]; exact rd_some ho), (rewind_reads hr).2]
      simp
  | cons u us ih =>
    intro hu p hm o ho hc fuel hf
    cases fuel with
    | zero => simp at hf
    | succ f =>
      have hU := hu u (by simp)
      have hm1 : Holds m p u := by
        intro j hj
        have := hm j (by simp; omega)
        rw [this, List.flatten_cons, List.getElem?_append_left hj]
      have hm2 : Holds m (p + u.length) us.flatten := by
        intro j hj
        have := hm (u.length + j) (by rw [List.flatten_cons, List.length_append]; omega)
        rw [List.flatten_cons, List.getElem?_append_right (by omega)] at this
        rw [show p + u.length + j = p + (u.length + j) by omega, this]; congr 1; omega
      have hpos := hU.length_pos
      have heq := iterEq_unit hU hm1 hpos (p + (u :: us).flatten.length)
      rw [Nat.add_zero] at heq
      have hfalse : decide (p ≤ p + (u :: us).flatten.length ∧ p + (u :: us).flatten.length < p + u.length) = false := by
        simp
      rw [hfalse] at heq
      rw [walk, reads_ok (a := false) (by rw [iterEq_res]; exact heq), if_neg (by simp)]
      have hcur := cur_unit hU hm1 hpos
      have hfwd := fwd_unit hU hm1 hpos
      rw [Nat.add_zero] at hcur hfwd
      rw [reads_ok (by rw [cur_res]; exact hcur)]
      dsimp only
      rw [reads_ok (by rw [fwd_res]; exact hfwd)]
      have hlen : p + (u :: us).flatten.length = p + u.length + us.flatten.length := by simp; omega
      rw [hlen] at ho ⊢
      have := ih (fun v hv => hu v (by simp [hv])) (p + u.length) hm2 o ho hc f (by simpa using hf)
      have hok : ∃ cs, U5e.walk m (p + u.length + us.flatten.length) f (p + u.length) = .ok cs :=
        ⟨_, walk_units m us (fun v hv => hu v (by simp [hv])) (p + u.length) hm2 o ho hc f (by simpa using hf)⟩
      obtain ⟨cs, hcs⟩ := hok
      rw [reads_ok (by rw [walk_res]; exact hcs), this, cur_unit_cost hU hm1, fwd_unit_cost hU hm1]
      rw [hlen] at heq
      rw [eq_unit_cost hU hm1]
      simp only [List.map_cons, List.sum_cons, roundReads, reads_pure]
      split <;> omega

/-! ### Comparing two grapheme iterators -/

variable {I : CpIter} {pos : Nat → Nat} {cs : List Int}

theorem eqCp_miss_cost (S : Sim I.plain pos cs) (hi : ∀ j, j < cs.length → (I.inc (pos j)).reads = 2)
    (he : ∀ j q, j ≤ cs.length → (I.eq (pos j) q).reads = 2) (fuel b w x k : Nat) (hwx : w ≤ x)
    (hx : x ≤ cs.length) (hk : k ≤ cs.length) (hf : cs.length < fuel) (hmiss : k < w ∨ x ≤ k) (hne : w ≠ k) :
    (eqCp I fuel ⟨b, pos cs.length, pos w, pos x⟩ (pos k)).reads = 6 * (x - w) + 4 := by
  have loop : ∀ fuel w, w ≤ x → x - w < fuel → (k < w ∨ x ≤ k) →
      (eqCpLoop I (pos x) (pos k) fuel (pos w)).reads = 6 * (x - w) + 2 := by
    intro fuel
    induction fuel with
    | zero => intro w _ h; omega
    | succ f ih =>
      intro w hw hfu hm
      rw [eqCpLoop, reads_ok (S.eq w x (by omega) hx), he w _ (by omega)]
      by_cases h : w = x
      · rw [if_pos (by simpa using h)]; subst h; simp
      · rw [if_neg (by simpa using h), reads_ok (S.eq w k (by omega) hk), he w _ (by omega),
          if_neg (by simp; omega), reads_ok (S.inc w (by omega)), hi w (by omega),
          ih (w + 1) (by omega) (by omega) (by omega)]
        omega
  rw [eqCp, reads_ok (S.eq w k (by omega) hk), he w _ (by omega), if_neg (by simpa using hne),
    loop fuel w hwx (by omega) hmiss]
  omega

theorem eqG_miss_cost (S : Sim I.plain pos cs) (hi : ∀ j, j < cs.length → (I.inc (pos j)).reads = 2)
    (he : ∀ j q, j ≤ cs.length → (I.eq (pos j) q).reads = 2) (fuel b b' w x w' x' : Nat) (hwx : w < x)
    (hx : x ≤ cs.length) (hwx' : w' < x') (hx' : x' ≤ cs.length) (hf : cs.length < fuel)
    (hdis : x ≤ w' ∨ x' ≤ w) :
    (eqG I fuel ⟨b, pos cs.length, pos w, pos x⟩ ⟨b', pos cs.length, pos w', pos x'⟩).reads =
      (x - w) * (6 * (x' - w') + 8) + 4 := by
  have loop : ∀ fu v, w ≤ v → v ≤ x → x - v < fu →
      (eqGLoop I fuel (pos x) ⟨b', pos cs.length, pos w', pos x'⟩ fu (pos v)).reads =
        (x - v) * (6 * (x' - w') + 8) + 2 := by
    intro fu
    induction fu with
    | zero => intro v _ _ h; omega
    | succ f ih =>
      intro v hwv hvx hfu
      rw [eqGLoop, reads_ok (S.eq v x (by omega) hx), he v _ (by omega)]
      by_cases h : v = x
      · rw [if_pos (by simpa using h)]; subst h; simp
      · have hmiss := eqCp_miss_cost S hi he fuel b' w' x' v (by omega) hx' (by omega) hf (by omega) (by omega)
        have hres : (eqCp I fuel ⟨b', pos cs.length, pos w', pos x'⟩ (pos v)).res = .ok false := by
          rw [eqCp_res]
          -- `b'` does not matter
          have : GIter.eqCp I.plain fuel ⟨b', pos cs.length, pos w', pos x'⟩ (pos v) =
              GIter.eqCp I.plain fuel ⟨pos 0, pos cs.length, pos w', pos x'⟩ (pos v) := rfl
          rw [this, eqCp_sim S fuel 0 w' x' v (by omega) hx' (by omega) hf]
          simp; omega
        rw [if_neg (by simpa using h), reads_ok hres, hmiss, if_neg (by simp), reads_ok (S.inc v (by omega)),
          hi v (by omega), ih (v + 1) (by omega) (by omega) (by omega)]
        have : x - v = (x - (v + 1)) + 1 := by omega
        rw [this, Nat.add_mul]; omega
  rw [eqG, reads_ok (S.eq w cs.length (by omega) (Nat.le_refl _)), he w _ (by omega)]
  have hne : decide (w = cs.length) = false := by simp; omega
  simp only [hne, Bool.false_eq_true, if_false, pure_bind]
  rw [loop fuel w (Nat.le_refl _) (by omega) (by omega)]
  omega

end Work
end U5e
