import Verif.Model.Grapheme
import Verif.Proofs.Filter
import Verif.Proofs.Segments
/-! The grapheme iterator over any codepoint iterator that simulates positions in a list. -/
namespace U5e

/-- The iterator `I` behaves on `pos 0 … pos n` like the positions `0 … n` of the list `cs`. -/
structure Sim (I : CpIter) (pos : Nat → Nat) (cs : List Int) : Prop where
  deref : ∀ i c, cs[i]? = some c → I.deref (pos i) = .ok (c, pos i)
  inc : ∀ i, i < cs.length → I.inc (pos i) = .ok (pos (i + 1))
  dec : ∀ i, i < cs.length → I.dec (pos (i + 1)) = .ok (pos i)
  eq : ∀ i j, i ≤ cs.length → j ≤ cs.length → I.eq (pos i) (pos j) = .ok (decide (i = j))

variable {I : CpIter} {pos : Nat → Nat} {cs : List Int}

local notation "brk" => isGraphemeBoundary

theorem drop_cons_of_lt {l : List Int} {i : Nat} (h : i < l.length) :
    ∃ c, l[i]? = some c ∧ l.drop i = c :: l.drop (i + 1) :=
  ⟨l[i], List.getElem?_eq_getElem h, List.drop_eq_getElem_cons h⟩

theorem findEndLoop_sim (S : Sim I pos cs) (fuel : Nat) (a : Int) (i : Nat) (hi : i ≤ cs.length)
    (hf : cs.length - i < fuel) :
    findEndLoop I (pos cs.length) fuel a (pos i) = .ok (pos (i + runLen brk a (cs.drop i))) := by
  induction fuel generalizing a i with
  | zero => omega
  | succ f ih =>
    simp only [findEndLoop, S.eq i cs.length hi (Nat.le_refl _), Res.bind_ok]
    by_cases h : i = cs.length
    · subst h; simp [runLen]
    · obtain ⟨c, hc, hd⟩ := drop_cons_of_lt (l := cs) (i := i) (by omega)
      simp only [decide_eq_true_eq, h, if_false, S.deref i c hc, Res.bind_ok, hd, runLen]
      by_cases hb : brk a c = true
      · simp [hb]
      · simp only [hb, if_false, S.inc i (by omega), Res.bind_ok, Bool.false_eq_true]
        rw [ih c (i + 1) (by omega) (by omega)]
        congr 2; omega

/-- Length of the part at the front. -/
def firstLen : List Int → Nat
  | [] => 0
  | c :: r => runLen brk c r + 1

theorem firstLen_le (l : List Int) : firstLen l ≤ l.length := by
  cases l with
  | nil => simp [firstLen]
  | cons c r => simp [firstLen, runLen_le]

theorem firstLen_pos {l : List Int} (h : l ≠ []) : 0 < firstLen l := by
  cases l with
  | nil => exact absurd rfl h
  | cons c r => simp [firstLen]

theorem findEnd_sim (S : Sim I pos cs) (fuel : Nat) (i : Nat) (hi : i ≤ cs.length)
    (hf : cs.length < fuel) :
    findEnd I fuel (pos cs.length) (pos i) = .ok (pos (i + firstLen (cs.drop i))) := by
  simp only [findEnd, S.eq i cs.length hi (Nat.le_refl _), Res.bind_ok]
  by_cases h : i = cs.length
  · subst h; simp [firstLen]
  · obtain ⟨c, hc, hd⟩ := drop_cons_of_lt (l := cs) (i := i) (by omega)
    simp only [decide_eq_true_eq, h, if_false, S.deref i c hc, S.inc i (by omega), Res.bind_ok, hd,
      firstLen]
    rw [findEndLoop_sim S fuel c (i + 1) (by omega) (by omega)]
    congr 2; omega

/-- `operator==(const_codepoint_iterator)`: the codepoint is the first one or lies inside. -/
theorem eqCpLoop_sim (S : Sim I pos cs) (fuel : Nat) (w x k : Nat) (hwx : w ≤ x) (hx : x ≤ cs.length)
    (hk : k ≤ cs.length) (hf : x - w < fuel) :
    eqCpLoop I (pos x) (pos k) fuel (pos w) = .ok (decide (w ≤ k ∧ k < x)) := by
  induction fuel generalizing w with
  | zero => omega
  | succ f ih =>
    simp only [eqCpLoop, S.eq w x (by omega) hx, S.eq w k (by omega) hk, Res.bind_ok,
      decide_eq_true_eq]
    by_cases h : w = x
    · subst h; simp
      try omega
    · simp only [h, if_false]
      by_cases h2 : w = k
      · subst h2; simp; omega
      · simp only [h2, if_false, S.inc w (by omega), Res.bind_ok]
        rw [ih (w + 1) (by omega) (by omega)]
        congr 1; apply decide_eq_decide.mpr; omega

theorem eqCp_sim (S : Sim I pos cs) (fuel : Nat) (b w x k : Nat) (hwx : w ≤ x)
    (hx : x ≤ cs.length) (hk : k ≤ cs.length) (hf : cs.length < fuel) :
    GIter.eqCp I fuel ⟨pos b, pos cs.length, pos w, pos x⟩ (pos k) =
      .ok (decide (w = k ∨ (w ≤ k ∧ k < x))) := by
  simp only [GIter.eqCp, S.eq w k (by omega) hk, Res.bind_ok, decide_eq_true_eq]
  by_cases h : w = k
  · simp [h]
  · simp only [h, if_false, false_or]
    exact eqCpLoop_sim S fuel w x k hwx hx hk (by omega)

theorem eqGLoop_sim (S : Sim I pos cs) (gf fuel : Nat) (b w x w' x' : Nat) (hwx : w ≤ x)
    (hx : x ≤ cs.length) (hwx' : w' ≤ x') (hx' : x' ≤ cs.length) (hgf : cs.length < gf)
    (hf : x - w < fuel) :
    eqGLoop I gf (pos x) ⟨pos b, pos cs.length, pos w', pos x'⟩ fuel (pos w) =
      .ok (decide (∃ k, k < x ∧ w ≤ k ∧ (w' = k ∨ (w' ≤ k ∧ k < x')))) := by
  induction fuel generalizing w with
  | zero => omega
  | succ f ih =>
    simp only [eqGLoop, S.eq w x (by omega) hx, Res.bind_ok, decide_eq_true_eq]
    by_cases h : w = x
    · subst h
      simp only [if_true, Res.pure_eq]
      congr 1; symm; rw [decide_eq_false_iff_not]
      rintro ⟨k, h1, h2, _⟩; omega
    · simp only [h, if_false, eqCp_sim S gf b w' x' w hwx' hx' (by omega) hgf, Res.bind_ok,
        decide_eq_true_eq]
      by_cases h2 : w' = w ∨ (w' ≤ w ∧ w < x')
      · rw [if_pos h2]
        simp only [Res.pure_eq]
        congr 1; symm; rw [decide_eq_true_eq]
        exact ⟨w, by omega, by omega, h2⟩
      · rw [if_neg h2]
        simp only [S.inc w (by omega), Res.bind_ok]
        rw [ih (w + 1) (by omega) (by omega)]
        congr 1; apply decide_eq_decide.mpr
        constructor
        · rintro ⟨k, h1, h3, h4⟩; exact ⟨k, h1, by omega, h4⟩
        · rintro ⟨k, h1, h3, h4⟩
          refine ⟨k, h1, ?_, h4⟩
          rcases Nat.lt_or_eq_of_le h3 with h5 | h5
          · exact h5
          · subst h5; exact absurd h4 h2

/-- `operator==(basic_grapheme_iterator)`: both at the end, or the codepoint ranges meet. -/
theorem eqG_sim (S : Sim I pos cs) (fuel : Nat) (b b' w x w' x' : Nat) (hwx : w ≤ x)
    (hx : x ≤ cs.length) (hwx' : w' ≤ x') (hx' : x' ≤ cs.length) (hf : cs.length < fuel) :
    GIter.eqG I fuel ⟨pos b, pos cs.length, pos w, pos x⟩ ⟨pos b', pos cs.length, pos w', pos x'⟩ =
      .ok (decide ((w = cs.length ∧ w' = cs.length) ∨
        ∃ k, k < x ∧ w ≤ k ∧ (w' = k ∨ (w' ≤ k ∧ k < x')))) := by
  simp only [GIter.eqG, S.eq w cs.length (by omega) (Nat.le_refl _), Res.bind_ok, decide_eq_true_eq]
  have hloop := eqGLoop_sim S fuel fuel b' w x w' x' hwx hx hwx' hx' hf (by omega)
  by_cases h : w = cs.length
  · rw [if_pos h, eqCp_sim S fuel b' w' x' cs.length hwx' hx' (Nat.le_refl _) hf]
    simp only [Res.bind_ok, decide_eq_true_eq]
    by_cases h2 : w' = cs.length
    · rw [if_pos (Or.inl h2)]; simp [h, h2]
    · rw [if_neg (by omega), hloop]
      congr 1; apply decide_eq_decide.mpr
      constructor
      · exact Or.inr
      · rintro (h3 | h3)
        · exact absurd h3.2 h2
        · exact h3
  · rw [if_neg h]
    simp only [Res.pure_eq, Res.bind_ok, Bool.false_eq_true, if_false, hloop]
    congr 1; apply decide_eq_decide.mpr
    constructor
    · exact Or.inr
    · rintro (h3 | h3)
      · exact absurd h3.1 h
      · exact h3

/-- Codepoint iteration traverses the list. -/
theorem traverses_codepoints (S : Sim I pos cs) (i j : Nat) (hij : i ≤ j) (hj : j ≤ cs.length) :
    Traverses I.input (pos i) (pos j) ((cs.take j).drop i) := by
  obtain ⟨d, rfl⟩ := Nat.exists_eq_add_of_le hij
  induction d generalizing i with
  | zero =>
    have : (cs.take (i + 0)).drop i = [] := by simp
    rw [this]
    exact .done (by simp [CpIter.input, S.eq i i hj hj])
  | succ d ih =>
    obtain ⟨c, hc, hd⟩ := drop_cons_of_lt (l := cs.take (i + (d + 1))) (i := i)
      (by simp; omega)
    rw [hd]
    rw [List.getElem?_take_of_lt (by omega)] at hc
    refine .step (s' := pos i) (s'' := pos (i + 1)) ?_ (S.deref i c hc) (S.inc i (by omega)) ?_
    · simp [CpIter.input, S.eq i (i + (d + 1)) (by omega) hj]
    · have := ih (i + 1) (by omega) (by omega)
      rwa [show i + 1 + d = i + (d + 1) by omega] at this

/-- `grapheme_end` when the codepoint after the text forces a boundary. -/
theorem graphemeEnd_sim (S : Sim I pos cs) (fuel : Nat) (hf : cs.length < fuel)
    (z : Int) (hz : I.deref (pos cs.length) = .ok (z, pos cs.length))
    (hb : ∀ a, cs.getLast? = some a → brk a z = true) :
    graphemeEnd I fuel (pos 0) (pos cs.length) =
      .ok ⟨pos 0, pos cs.length, pos cs.length, pos cs.length⟩ := by
  have hfe := findEnd_sim S fuel cs.length (Nat.le_refl _) hf
  simp only [List.drop_length, firstLen, Nat.add_zero] at hfe
  have hfs : findStart I fuel (pos 0) (pos cs.length) = .ok (pos cs.length) := by
    simp only [findStart, S.eq cs.length 0 (Nat.le_refl _) (Nat.zero_le _), Res.bind_ok,
      decide_eq_true_eq]
    by_cases h : cs.length = 0
    · simp [h]
    · rw [if_neg h]
      obtain ⟨n, hn⟩ := Nat.exists_eq_succ_of_ne_zero h
      have hlast : cs[n]? = cs.getLast? := by rw [List.getLast?_eq_getElem?]; congr 1; omega
      obtain ⟨a, ha, _⟩ := drop_cons_of_lt (l := cs) (i := n) (by omega)
      have hdec := S.dec n (by omega)
      rw [show n + 1 = cs.length by omega] at hdec
      simp only [hdec, Res.bind_ok, S.deref n a ha]
      cases fuel with
      | zero => omega
      | succ f =>
        simp only [findStartLoop, S.eq cs.length 0 (Nat.le_refl _) (Nat.zero_le _), Res.bind_ok,
          decide_eq_true_eq, h, if_false, hz, hb a (by rw [← hlast]; exact ha), if_true,
          Res.pure_eq]
  simp only [graphemeEnd, gAt, hfs, hfe, Res.bind_ok, Res.pure_eq]

/-- Positions of consecutive parts. -/
def segPos (pos : Nat → Nat) : Nat → List (List Int) → List Grapheme
  | _, [] => []
  | i, g :: gs => ⟨pos i, pos (i + g.length)⟩ :: segPos pos (i + g.length) gs

theorem segPos_length (pos : Nat → Nat) (i : Nat) (gs : List (List Int)) :
    (segPos pos i gs).length = gs.length := by
  induction gs generalizing i with
  | nil => rfl
  | cons g gs ih => simp [segPos, ih]

theorem segments_cons' (c : Int) (r : List Int) :
    segments brk (c :: r) = (c :: r).take (firstLen (c :: r)) ::
      segments brk ((c :: r).drop (firstLen (c :: r))) := by
  rw [segments_cons]; simp [firstLen]

theorem segments_length_le (cs : List Int) : (segments brk cs).length ≤ cs.length := by
  match cs with
  | [] => simp [segments]
  | c :: r =>
    rw [segments_cons]
    have := segments_length_le (r.drop (runLen brk c r))
    simp at this ⊢; omega
termination_by cs.length
decreasing_by simp; omega

/-- Grapheme iteration traverses the parts of the segmentation. -/
theorem traverses_graphemes (S : Sim I pos cs) (fuel : Nat) (hf : cs.length < fuel) (i : Nat)
    (hi : i ≤ cs.length) :
    Traverses (graphemeInput I fuel) ⟨pos 0, pos cs.length, pos i, pos (i + firstLen (cs.drop i))⟩
      ⟨pos 0, pos cs.length, pos cs.length, pos cs.length⟩
      (segPos pos i (segments brk (cs.drop i))) := by
  have hle := firstLen_le (cs.drop i)
  rw [List.length_drop] at hle
  have hne : ∀ b, (graphemeInput I fuel).ne
      ⟨pos 0, pos cs.length, pos i, pos (i + firstLen (cs.drop i))⟩
      ⟨pos 0, pos cs.length, pos cs.length, pos cs.length⟩ = .ok b ↔ b = decide (i ≠ cs.length) := by
    intro b
    simp only [graphemeInput, eqG_sim S fuel 0 0 i (i + firstLen (cs.drop i)) cs.length cs.length
      (by omega) (by omega) (Nat.le_refl _) (Nat.le_refl _) hf, Res.bind_ok, Res.pure_eq,
      Res.ok.injEq]
    have : decide ((i = cs.length ∧ True) ∨ ∃ k, k < i + firstLen (cs.drop i) ∧ i ≤ k ∧
        (cs.length = k ∨ (cs.length ≤ k ∧ k < cs.length))) = decide (i = cs.length) := by
      apply decide_eq_decide.mpr
      constructor
      · rintro (h | ⟨k, h1, h2, h3⟩)
        · exact h.1
        · omega
      · intro h; exact Or.inl ⟨h, trivial⟩
    rw [this, decide_not]
    exact ⟨fun h => h.symm, fun h => h.symm⟩
  by_cases h : i = cs.length
  · have hs : segPos pos i (segments brk (cs.drop i)) = [] := by subst h; simp [segments, segPos]
    rw [hs]
    exact .done ((hne false).mpr (by simp [h]))
  · have hlt : i < cs.length := by omega
    obtain ⟨c, hc, hd⟩ := drop_cons_of_lt (l := cs) (i := i) hlt
    have hseg : segments brk (cs.drop i) = (cs.drop i).take (firstLen (cs.drop i)) ::
        segments brk (cs.drop (i + firstLen (cs.drop i))) := by
      rw [← List.drop_drop, hd, segments_cons']
    have hpos : 0 < firstLen (cs.drop i) := firstLen_pos (by rw [hd]; simp)
    rw [hseg, segPos]
    have hlen : ((cs.drop i).take (firstLen (cs.drop i))).length = firstLen (cs.drop i) := by
      simp; omega
    rw [hlen]
    refine .step (s' := ⟨pos 0, pos cs.length, pos i, pos (i + firstLen (cs.drop i))⟩)
      (s'' := ⟨pos 0, pos cs.length, pos (i + firstLen (cs.drop i)),
        pos (i + firstLen (cs.drop i) + firstLen (cs.drop (i + firstLen (cs.drop i))))⟩)
      ((hne true).mpr (by simp [h])) rfl ?_ ?_
    · simp only [graphemeInput, GIter.inc, findEnd_sim S fuel (i + firstLen (cs.drop i)) (by omega) hf,
        Res.bind_ok, Res.pure_eq]
    · exact traverses_graphemes S fuel hf (i + firstLen (cs.drop i)) (by omega)
termination_by cs.length - i
decreasing_by omega

theorem graphemeBegin_sim (S : Sim I pos cs) (fuel : Nat) (hf : cs.length < fuel) :
    graphemeBegin I fuel (pos 0) (pos cs.length) =
      .ok ⟨pos 0, pos cs.length, pos 0, pos (firstLen cs)⟩ := by
  have := findEnd_sim S fuel 0 (Nat.zero_le _) hf
  simp only [List.drop_zero, Nat.zero_add] at this
  simp only [graphemeBegin, gBegin, this, Res.bind_ok, Res.pure_eq]

/-- `filter` over all graphemes: the operation is applied to each part in order. -/
theorem filterGraphemes_sim (S : Sim I pos cs) (fuel : Nat) (hf : cs.length < fuel)
    (z : Int) (hz : I.deref (pos cs.length) = .ok (z, pos cs.length))
    (hb : ∀ a, cs.getLast? = some a → brk a z = true) (out : β)
    (op : Grapheme → β → Res (Int × β)) :
    filterGraphemes I fuel (pos 0) (pos cs.length) out op =
      (segPos pos 0 (segments brk cs)).foldlM (accum op) (0, out) := by
  have ht := traverses_graphemes S fuel hf 0 (Nat.zero_le _)
  simp only [List.drop_zero, Nat.zero_add] at ht
  simp only [filterGraphemes, graphemeBegin_sim S fuel hf, graphemeEnd_sim S fuel hf z hz hb,
    Res.bind_ok]
  refine filter_eq _ op ht fuel ?_ out
  rw [segPos_length]
  have := segments_length_le cs
  omega

end U5e
