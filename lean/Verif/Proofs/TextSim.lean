import Verif.Proofs.TextSafety
import Verif.Proofs.Forms
/-! Malformed text on which every increment lands exactly on the next position of rest is segmented
and normalized like the codepoints the iterator yields. -/
namespace U5e
open Spec

/-! ### Going backwards is irrelevant for iterating over all graphemes -/

section
variable (I : CpIter) (d : Nat → Res Nat)

/-- The same iterator with another `operator--`. -/
def CpIter.withDec : CpIter := { I with dec := d }

theorem findEndLoop_withDec (e fuel : Nat) (a : Int) (p : Nat) :
    findEndLoop (I.withDec d) e fuel a p = findEndLoop I e fuel a p := by
  induction fuel generalizing a p with
  | zero => rfl
  | succ fuel ih => simp only [findEndLoop, ih]; rfl

theorem findEnd_withDec (fuel e p : Nat) : findEnd (I.withDec d) fuel e p = findEnd I fuel e p := by
  simp only [findEnd, findEndLoop_withDec]; rfl

theorem eqCpLoop_withDec (x o fuel p : Nat) :
    eqCpLoop (I.withDec d) x o fuel p = eqCpLoop I x o fuel p := by
  induction fuel generalizing p with
  | zero => rfl
  | succ fuel ih => simp only [eqCpLoop, ih]; rfl

theorem eqCp_withDec (fuel : Nat) (g : GIter) (o : Nat) :
    g.eqCp (I.withDec d) fuel o = g.eqCp I fuel o := by
  simp only [GIter.eqCp, eqCpLoop_withDec]; rfl

theorem eqGLoop_withDec (gf x : Nat) (o : GIter) (fuel p : Nat) :
    eqGLoop (I.withDec d) gf x o fuel p = eqGLoop I gf x o fuel p := by
  induction fuel generalizing p with
  | zero => rfl
  | succ fuel ih => simp only [eqGLoop, ih, eqCp_withDec]; rfl

theorem eqG_withDec (fuel : Nat) (g o : GIter) : g.eqG (I.withDec d) fuel o = g.eqG I fuel o := by
  simp only [GIter.eqG, eqGLoop_withDec, eqCp_withDec]; rfl

theorem graphemeInput_withDec (fuel : Nat) : graphemeInput (I.withDec d) fuel = graphemeInput I fuel := by
  simp only [graphemeInput, eqG_withDec, GIter.inc, findEnd_withDec]

end

theorem filterGraphemes_withDec {I : CpIter} {d : Nat → Res Nat} {fuel e : Nat}
    (h : graphemeEnd (I.withDec d) fuel 0 e = graphemeEnd I fuel 0 e) (out : β)
    (op : Grapheme → β → Res (Int × β)) :
    filterGraphemes (I.withDec d) fuel 0 e out op = filterGraphemes I fuel 0 e out op := by
  simp only [filterGraphemes, h, graphemeInput_withDec, graphemeBegin, gBegin, findEnd_withDec]

theorem run_withDec (F : Form) (sort : SortFn) (append : AppendFn β) (I : CpIter) (d : Nat → Res Nat) :
    F.run sort append (I.withDec d) = F.run sort append I := by
  cases F <;> rfl

theorem walk_traverses {m : Mem} {e p : Nat} {cs : List Int} (h : Traverses (utf8Iter m).input p e cs)
    (fuel : Nat) (hf : cs.length < fuel) : walk m e fuel p = .ok cs := by
  have key : ∀ {a b : Nat} {v : Bool}, (utf8Iter m).input.ne a b = .ok v → iterEq m a b = .ok (!v) := by
    intro a b v h
    obtain ⟨r, h1, h2⟩ := Res.bind_eq_ok.mp h
    have : (!r) = v := Res.ok.inj h2
    rw [← this, Bool.not_not]
    exact h1
  induction h generalizing fuel with
  | done h =>
    cases fuel with
    | zero => omega
    | succ f => simp [walk, key h]
  | step h1 h2 h3 _ ih =>
    cases fuel with
    | zero => simp at hf
    | succ f =>
      have h2' : cur m _ = _ := h2
      have h3' : fwd m _ = _ := h3
      simp only [walk, key h1, Bool.not_true, Res.bind_ok, Bool.false_eq_true, if_false, h2', h3',
        ih f (by simpa using hf), Res.pure_eq]

section
variable {I : CpIter} {st sz : Nat → Nat} {val : Nat → Int} {e : Nat}

/-- Positions increase until the end is reached. -/
theorem hops_reach (W : Wk I st sz val e)
    (hn : ∀ s, From st sz e s → s < e → st (s + sz s) = s + sz s) :
    ∃ n, hops st sz e n 0 = e ∧ n ≤ e ∧ ∀ i, i < n → hops st sz e i 0 < e := by
  have key : ∀ k, (∃ n, hops st sz e n 0 = e ∧ n ≤ e ∧ ∀ i, i < n → hops st sz e i 0 < e) ∨
      (k ≤ hops st sz e k 0 ∧ ∀ i, i ≤ k → hops st sz e i 0 < e) := by
    intro k
    induction k with
    | zero =>
      by_cases h : 0 = e
      · left; exact ⟨0, h, Nat.zero_le _, fun i hi => by omega⟩
      · right; refine ⟨Nat.zero_le _, fun i hi => ?_⟩
        obtain rfl : i = 0 := by omega
        show 0 < e; omega
    | succ k ih =>
      rcases ih with h | ⟨h1, h2⟩
      · exact .inl h
      · have hlt := h2 k (Nat.le_refl _)
        have hF : From st sz e (hops st sz e k 0) := ⟨k, rfl⟩
        have hs : hops st sz e (k + 1) 0 = hops st sz e k 0 + sz (hops st sz e k 0) := by
          rw [hops_succ, hopOne, if_pos hlt, hn _ hF hlt]
        have hst : st (hops st sz e k 0) = hops st sz e k 0 := by
          cases k with
          | zero => exact W.zero
          | succ j =>
            have hj := h2 j (by omega)
            rw [hops_succ, hopOne, if_pos hj]
            apply W.idem
            have hF' : From st sz e (hops st sz e j 0) := ⟨j, rfl⟩
            have h4 : hops st sz e (j + 1) 0 = hops st sz e j 0 + sz (hops st sz e j 0) := by
              rw [hops_succ, hopOne, if_pos hj, hn _ hF' hj]
            omega
        have hr := W.room _ hlt
        rw [hst] at hr
        have hp := W.pos (hops st sz e k 0)
        by_cases h : hops st sz e (k + 1) 0 = e
        · left; exact ⟨k + 1, h, by omega, fun i hi => h2 i (by omega)⟩
        · right; refine ⟨by omega, fun i hi => ?_⟩
          rcases Nat.lt_or_ge i (k + 1) with h' | h'
          · exact h2 i (by omega)
          · obtain rfl : i = k + 1 := by omega
            omega
  rcases key e with h | ⟨h1, h2⟩
  · exact h
  · have := h2 e (Nat.le_refl _); omega

theorem sim_of_wk (W : Wk I st sz val e)
    (hn : ∀ s, From st sz e s → s < e → st (s + sz s) = s + sz s) :
    ∃ (pos : Nat → Nat) (cs : List Int) (d : Nat → Res Nat), pos 0 = 0 ∧ pos cs.length = e ∧
      cs.length ≤ e ∧ Sim (I.withDec d) pos cs ∧ ∃ q, q ≤ e ∧ (0 < e → d e = .ok q) := by
  obtain ⟨n, h1, hne, h2⟩ := hops_reach W hn
  let pos : Nat → Nat := fun i => hops st sz e i 0
  have hstep : ∀ i, i < n → pos (i + 1) = pos i + sz (pos i) := by
    intro i hi
    show hops st sz e (i + 1) 0 = _
    rw [hops_succ, hopOne, if_pos (h2 i hi), hn _ ⟨i, rfl⟩ (h2 i hi)]
  have hle : ∀ i, i ≤ n → pos i ≤ e := by
    intro i hi
    rcases Nat.lt_or_ge i n with h | h
    · exact Nat.le_of_lt (h2 i h)
    · obtain rfl : i = n := by omega
      exact Nat.le_of_eq h1
  have hst : ∀ i, i ≤ n → st (pos i) = pos i := by
    intro i hi
    cases i with
    | zero => exact W.zero
    | succ j =>
      have hj := h2 j (by omega)
      have : pos (j + 1) = st (pos j + sz (pos j)) := by
        show hops st sz e (j + 1) 0 = _
        rw [hops_succ, hopOne, if_pos hj]
      rw [this]
      apply W.idem
      rw [← hstep j (by omega)]
      exact hle _ hi
  have hmono : ∀ j i, i < j → j ≤ n → pos i + sz (pos i) ≤ pos j := by
    intro j
    induction j with
    | zero => intros; omega
    | succ j ih =>
      intro i hi hj
      have := hstep j (by omega)
      have := W.pos (pos j)
      rcases Nat.lt_or_ge i j with h | h
      · have := ih i h (by omega); omega
      · obtain rfl : i = j := by omega
        omega
  have hinj : ∀ i j, i ≤ n → j ≤ n → pos i = pos j → i = j := by
    intro i j hi hj h
    rcases Nat.lt_trichotomy i j with hl | hl | hl
    · have := hmono j i hl hj; have := W.pos (pos i); omega
    · exact hl
    · have := hmono i j hl hi; have := W.pos (pos j); omega
  let d : Nat → Res Nat := fun p =>
    match (List.range n).find? (fun i => decide (pos (i + 1) = p)) with
    | some i => .ok (pos i)
    | none => .ub
  have hd : ∀ i, i < n → d (pos (i + 1)) = .ok (pos i) := by
    intro i hi
    show (match (List.range n).find? (fun j => decide (pos (j + 1) = pos (i + 1))) with
      | some i => Res.ok (pos i)
      | none => Res.ub) = _
    cases hf : (List.range n).find? (fun j => decide (pos (j + 1) = pos (i + 1))) with
    | none =>
      have := List.find?_eq_none.mp hf i (List.mem_range.mpr hi)
      simp at this
    | some j =>
      have hj1 := List.find?_some hf
      have hj2 := List.mem_range.mp (List.mem_of_find?_eq_some hf)
      have := hinj (j + 1) (i + 1) (by omega) (by omega) (by simpa using hj1)
      simp only [show j = i by omega]
  refine ⟨pos, (List.range n).map (fun i => val (pos i)), d, rfl, by simpa using h1, by simpa using hne,
    ⟨?_, ?_, ?_, ?_⟩, ?_⟩
  · intro i c hc
    simp only [List.getElem?_map, Option.map_eq_some_iff] at hc
    obtain ⟨j, hj, rfl⟩ := hc
    obtain ⟨hj', rfl⟩ := List.getElem?_eq_some_iff.mp hj
    simp only [List.length_range] at hj'
    rw [List.getElem_range]
    have := W.deref (pos i) (hle i (by omega))
    rw [hst i (by omega)] at this
    exact this
  · intro i hi
    simp only [List.length_map, List.length_range] at hi
    have := W.inc (pos i) (h2 i hi)
    rw [hst i (by omega), ← hstep i hi] at this
    exact this
  · intro i hi
    simp only [List.length_map, List.length_range] at hi
    exact hd i hi
  · intro i j hi hj
    simp only [List.length_map, List.length_range] at hi hj
    have := W.eq (pos i) (pos j) (hle i hi)
    rw [hst i hi] at this
    show I.eq _ _ = _
    rw [this]
    congr 1
    apply decide_eq_decide.mpr
    constructor
    · rintro ⟨a, b⟩
      rcases Nat.lt_trichotomy i j with hl | hl | hl
      · have := hmono j i hl hj; omega
      · exact hl
      · have := hmono i j hl hi; have := W.pos (pos j); omega
    · rintro rfl
      have := W.pos (pos i); omega
  · cases n with
    | zero => exact ⟨0, Nat.zero_le _, fun h => by have : (0 : Nat) = e := h1; omega⟩
    | succ n =>
      refine ⟨pos n, hle n (by omega), fun _ => ?_⟩
      have := hd n (by omega)
      rwa [show pos (n + 1) = e from h1] at this

end

theorem separate_hop {t : List Octet} (T : Tame t) (hS : Separate t) {s : Nat}
    (hF : From (restAt (t ++ [0])) (claimAt (t ++ [0])) t.length s) (hlt : s < t.length) :
    restAt (t ++ [0]) (s + claimAt (t ++ [0]) s) = s + claimAt (t ++ [0]) s := by
  have hR := tame_from T hlt hF
  obtain ⟨l, hl⟩ : ∃ l, t[s]? = some l := ⟨t[s], List.getElem?_eq_getElem hlt⟩
  have hnc : ¬ IsContinuation l := by
    cases hR with
    | start => exact T.first l (by rw [List.head?_eq_getElem?]; exact hl)
    | step a1 a2 a3 a4 a5 a6 a7 => rw [hl] at a5; obtain rfl := Option.some.inj a5; exact a6
  have hm : (t ++ [0])[s]? = some l := by rw [List.getElem?_append_left hlt]; exact hl
  have hst : restAt (t ++ [0]) s = s := by rw [restAt, rewind_stop hm hnc]
  have hsz : claimAt (t ++ [0]) s = cpSize l := by
    simp only [claimAt, hst, List.getD_eq_getElem?_getD, hm, Option.getD_some]
  have hcl := cpSize_claimed l hnc
  have hroom := cpSize_room T hl
  rw [hsz]
  rcases Nat.lt_or_ge (s + cpSize l) t.length with h | h
  · have ho := List.getElem?_eq_getElem h
    have hoc := hS s l _ hR hl (by rw [← hcl]; exact ho)
    rw [restAt, rewind_stop (by rw [List.getElem?_append_left h]; exact ho) hoc]
  · obtain h' : s + cpSize l = t.length := by omega
    rw [h', (tame_wk T).atEnd]

/-- Everything about separate texts: the codepoints an iterator yields, and graphemes and forms of
them. -/
theorem separate_all {t : List Octet} (T : Tame t) (hS : Separate t)
    (hlen : 20 * t.length ≤ 2147483647) (fuel : Nat) (hf : t.length < fuel) :
    ∃ cs : List Int, cs.length ≤ t.length ∧ walk (t ++ [0]) t.length fuel 0 = .ok cs ∧
      filterGraphemes (utf8Iter (t ++ [0])) fuel 0 t.length [] (collectGrapheme (utf8Iter (t ++ [0])) fuel)
        = .ok ((segments isGraphemeBoundary cs).length, segments isGraphemeBoundary cs) ∧
      ∀ (F : Form) (sort : SortFn), ConformingSort sort →
        normalizeText (F.run sort append32) (utf8Iter (t ++ [0])) fuel 0 t.length [] =
          .ok ((F.text sort cs).length, F.text sort cs) := by
  have W := tame_wk T
  obtain ⟨pos, cs, d, h0, hn, hcs, S, q, hq, hdq⟩ := sim_of_wk W (fun s => separate_hop T hS)
  have hz : ((utf8Iter (t ++ [0])).withDec d).deref (pos cs.length) =
      .ok (valAt (t ++ [0]) t.length, pos cs.length) := by
    have := W.deref t.length (Nat.le_refl _)
    rw [W.atEnd] at this
    rw [hn]; exact this
  have hge : graphemeEnd ((utf8Iter (t ++ [0])).withDec d) fuel 0 t.length =
      graphemeEnd (utf8Iter (t ++ [0])) fuel 0 t.length := by
    have a := graphemeEnd_sim S fuel (by omega) _ hz (fun a _ => W.endVal a)
    rw [h0, hn] at a
    rw [a]
    rcases graphemeEnd_out W fuel with ⟨g, hg, rfl⟩ | ⟨_, h⟩
    · exact hg.symm
    · omega
  refine ⟨cs, hcs, ?_, ?_, ?_⟩
  · have := traverses_codepoints S 0 cs.length (Nat.zero_le _) (Nat.le_refl _)
    rw [h0, hn, List.take_length, List.drop_zero] at this
    exact walk_traverses this fuel (by omega)
  · have := collect_sim S fuel (by omega) (by omega) _ hz (fun a _ => W.endVal a)
    rw [h0, hn, filterGraphemes_withDec hge] at this
    exact this
  · intro F sort hs
    have hdl := decompose_length_le F.good cs
    have := F.text_sim S fuel (by omega) _ hz (fun a _ => W.endVal a) hs append32 id
      (fun g _ o => rfl) (by omega) []
    rw [h0, hn, normalizeText, filterGraphemes_withDec hge, run_withDec] at this
    rw [normalizeText, this]
    simp only [List.nil_append, id]
    rfl

end U5e
