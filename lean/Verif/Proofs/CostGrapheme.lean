import Verif.Proofs.CostTables
import Verif.Proofs.Forms
/-! How much the grapheme iterator reads. -/
namespace U5e
open Spec
namespace Work

/-- On the positions `pos 0 … pos n` every operation of `I` reads little. -/
structure Cheap (I : CpIter) (pos : Nat → Nat) (n d i k e : Nat) : Prop where
  deref : ∀ j, j ≤ n → (I.deref (pos j)).reads ≤ d
  inc : ∀ j, j < n → (I.inc (pos j)).reads ≤ i
  dec : ∀ j, j < n → (I.dec (pos (j + 1))).reads ≤ k
  eq : ∀ j q, j ≤ n → (I.eq (pos j) q).reads ≤ e

variable {I : CpIter} {pos : Nat → Nat} {cs : List Int} {d i k e : Nat}

local notation "brk" => U5e.isGraphemeBoundary

theorem findEndLoop_cost (S : Sim I.plain pos cs) (H : Cheap I pos cs.length d i k e) (fuel : Nat) (a : Int) (j : Nat)
    (hj : j ≤ cs.length) :
    (findEndLoop I (pos cs.length) fuel a (pos j)).reads ≤
      (e + d + 22 + i) * runLen brk a (cs.drop j) + (e + d + 22) := by
  induction fuel generalizing a j with
  | zero => simp [findEndLoop]
  | succ f ih =>
    rw [findEndLoop]
    rw [reads_ok (S.eq j cs.length hj (Nat.le_refl _))]
    have he := H.eq j (pos cs.length) hj
    by_cases h : j = cs.length
    · rw [if_pos (by simpa using h)]; simp only [reads_pure]; omega
    · rw [if_neg (by simpa using h)]
      obtain ⟨c, hc, hd⟩ := drop_cons_of_lt (l := cs) (i := j) (by omega)
      rw [reads_ok (S.deref j c hc)]
      have hd' := H.deref j hj
      dsimp only
      rw [reads_ok (isGraphemeBoundary_res a c), hd, runLen]
      have hb := boundary_le a c
      by_cases hbr : brk a c = true
      · rw [if_pos hbr, if_pos hbr]; simp only [reads_pure]; omega
      · rw [if_neg hbr, if_neg hbr, reads_ok (S.inc j (by omega))]
        have hi := H.inc j (by omega)
        have := ih c (j + 1) (by omega)
        rw [Nat.mul_add]
        omega

theorem findEnd_cost (S : Sim I.plain pos cs) (H : Cheap I pos cs.length d i k e) (fuel : Nat) (j : Nat)
    (hj : j ≤ cs.length) :
    (findEnd I fuel (pos cs.length) (pos j)).reads ≤ (e + d + 22 + i) * firstLen (cs.drop j) + (e + d) := by
  rw [findEnd, reads_ok (S.eq j cs.length hj (Nat.le_refl _))]
  have he := H.eq j (pos cs.length) hj
  by_cases h : j = cs.length
  · rw [if_pos (by simpa using h)]; simp only [reads_pure]; omega
  · rw [if_neg (by simpa using h)]
    obtain ⟨c, hc, hd⟩ := drop_cons_of_lt (l := cs) (i := j) (by omega)
    rw [reads_ok (S.deref j c hc)]
    have hd' := H.deref j hj
    dsimp only
    rw [reads_ok (S.inc j (by omega)), hd, firstLen]
    have hi := H.inc j (by omega)
    have := findEndLoop_cost S H fuel c (j + 1) (by omega)
    rw [Nat.mul_add]
    omega

/-- `grapheme_end` when the codepoint after the text forces a boundary. -/
theorem gEnd_cost (S : Sim I.plain pos cs) (H : Cheap I pos cs.length d i k e) (fuel : Nat)
    (z : Int) (hz : (I.deref (pos cs.length)).res = .ok (z, pos cs.length))
    (hb : ∀ a, cs.getLast? = some a → brk a z = true) :
    (gAt I fuel (pos 0) (pos cs.length) (pos cs.length)).reads ≤ 3 * e + 3 * d + k + 22 := by
  rw [gAt]
  have h1 : (findStart I fuel (pos 0) (pos cs.length)).reads ≤ 2 * e + 2 * d + k + 22 := by
    rw [findStart, reads_ok (S.eq cs.length 0 (Nat.le_refl _) (Nat.zero_le _))]
    have he := H.eq cs.length (pos 0) (Nat.le_refl _)
    by_cases h : cs.length = 0
    · rw [if_pos (by simpa using h)]; simp only [reads_pure]; omega
    · rw [if_neg (by simpa using h)]
      obtain ⟨n, hn⟩ := Nat.exists_eq_succ_of_ne_zero h
      have hlast : cs[n]? = cs.getLast? := by rw [List.getLast?_eq_getElem?]; congr 1; omega
      obtain ⟨a, ha, _⟩ := drop_cons_of_lt (l := cs) (i := n) (by omega)
      have hdec := S.dec n (by omega)
      have hk := H.dec n (by omega)
      rw [show n + 1 = cs.length by omega] at hdec hk
      rw [reads_ok hdec, reads_ok (S.deref n a ha)]
      have hd1 := H.deref n (by omega)
      have hd2 := H.deref cs.length (Nat.le_refl _)
      dsimp only
      cases fuel with
      | zero => simp only [findStartLoop, reads_tmo]; omega
      | succ f =>
        rw [findStartLoop, reads_ok (S.eq cs.length 0 (Nat.le_refl _) (Nat.zero_le _)), if_neg (by simpa using h), reads_ok hz]
        dsimp only
        rw [reads_ok (isGraphemeBoundary_res a z), if_pos (hb a (by rw [← hlast]; exact ha))]
        have := boundary_le a z
        simp only [reads_pure]; omega
  refine Nat.le_trans (reads_le (j := 2 * e + 2 * d + k + 22) (k := e + d) h1 fun w _ => ?_) (by omega)
  refine reads_le (j := e + d) (k := 0) ?_ fun x _ => by simp
  have := findEnd_cost S H fuel cs.length (Nat.le_refl _)
  simpa [firstLen] using this

theorem eqCp_end_cost (S : Sim I.plain pos cs) (H : Cheap I pos cs.length d i k e) (fuel b j : Nat) :
    (eqCp I fuel ⟨b, pos cs.length, pos cs.length, pos cs.length⟩ j).reads ≤ 2 * e := by
  rw [eqCp]
  refine Nat.le_trans (reads_le (j := e) (k := e) (H.eq _ _ (Nat.le_refl _)) fun r _ => ?_) (by omega)
  split
  · simp
  · cases fuel with
    | zero => simp [eqCpLoop]
    | succ f =>
      rw [eqCpLoop, reads_ok (S.eq cs.length cs.length (Nat.le_refl _) (Nat.le_refl _)), if_pos (by simp)]
      exact Nat.le_trans (Nat.add_le_add_right (H.eq _ _ (Nat.le_refl _)) _) (by simp)

theorem eqGLoop_end_cost (S : Sim I.plain pos cs) (H : Cheap I pos cs.length d i k e) (gf fuel b w x : Nat)
    (hwx : w ≤ x) (hx : x ≤ cs.length) :
    (eqGLoop I gf (pos x) ⟨b, pos cs.length, pos cs.length, pos cs.length⟩ fuel (pos w)).reads ≤
      (3 * e + i) * (x - w) + e := by
  induction fuel generalizing w with
  | zero => simp [eqGLoop]
  | succ f ih =>
    rw [eqGLoop, reads_ok (S.eq w x (by omega) hx)]
    have he := H.eq w (pos x) (by omega)
    by_cases h : w = x
    · rw [if_pos (by simpa using h)]; simp only [reads_pure]; omega
    · rw [if_neg (by simpa using h)]
      have h1 : (3 * e + i) * (x - w) = (3 * e + i) * (x - (w + 1)) + (3 * e + i) := by
        rw [← Nat.mul_succ]; congr 1; omega
      have hr := ih (w + 1) (by omega)
      have : (eqCp I gf ⟨b, pos cs.length, pos cs.length, pos cs.length⟩ (pos w) >>= fun hit =>
          if hit = true then pure true
          else I.inc (pos w) >>= fun c => eqGLoop I gf (pos x) ⟨b, pos cs.length, pos cs.length, pos cs.length⟩ f c).reads
          ≤ 2 * e + (i + ((3 * e + i) * (x - (w + 1)) + e)) := by
        refine reads_le (eqCp_end_cost S H gf b (pos w)) fun hit _ => ?_
        split
        · simp
        · refine reads_le (H.inc w (by omega)) fun c hc => ?_
          rw [show (I.inc (pos w)).res = .ok (pos (w + 1)) from S.inc w (by omega)] at hc
          cases hc; exact hr
      omega

/-- Comparing with `grapheme_end`. -/
theorem eqG_end_cost (S : Sim I.plain pos cs) (H : Cheap I pos cs.length d i k e) (fuel b b' w x : Nat)
    (hwx : w ≤ x) (hx : x ≤ cs.length) :
    (eqG I fuel ⟨b, pos cs.length, pos w, pos x⟩ ⟨b', pos cs.length, pos cs.length, pos cs.length⟩).reads ≤
      (3 * e + i) * (x - w) + 4 * e := by
  rw [eqG]
  refine Nat.le_trans (reads_le (j := e) (k := 2 * e + ((3 * e + i) * (x - w) + e)) (H.eq w _ (by omega))
    fun r _ => ?_) (by omega)
  have hl := eqGLoop_end_cost S H fuel fuel b' w x hwx hx
  cases r
  · simp only [Bool.false_eq_true, if_false, pure_bind]
    omega
  · simp only [if_true]
    refine reads_le (eqCp_end_cost S H fuel b' _) fun r' _ => ?_
    split
    · simp
    · exact hl

/-- `C w x` bounds the work on the codepoints `w … x`; adjacent parts add up. -/
structure Bound (C : Nat → Nat → Nat) : Prop where
  add : ∀ w x y, w ≤ x → x ≤ y → C w x + C x y ≤ C w y

theorem filterLoop_cost (S : Sim I.plain pos cs) (H : Cheap I pos cs.length d i k e) {C : Nat → Nat → Nat}
    (hC : Bound C) (op : Grapheme → β → Work (Int × β)) (gf : Nat) (hgf : cs.length < gf)
    (hop : ∀ w x out, w < x → x ≤ cs.length → (op ⟨pos w, pos x⟩ out).reads ≤ C w x)
    (fuel : Nat) : ∀ (w : Nat) (out : β) (n : Int), w ≤ cs.length →
    (filterLoop (graphemeInput I gf) op ⟨pos 0, pos cs.length, pos cs.length, pos cs.length⟩ fuel
      ⟨pos 0, pos cs.length, pos w, pos (w + firstLen (cs.drop w))⟩ out n).reads ≤
      C w cs.length + (7 * e + i) * (cs.length - w) +
        (e + d + 22 + i + (e + d)) * (cs.length - (w + firstLen (cs.drop w))) + (5 * e + d) := by
  induction fuel with
  | zero => intros; simp [filterLoop]
  | succ f ih =>
    intro w out n hw
    have hle := firstLen_le (cs.drop w)
    rw [List.length_drop] at hle
    have hx : w + firstLen (cs.drop w) ≤ cs.length := by omega
    have hne : ((graphemeInput I gf).ne ⟨pos 0, pos cs.length, pos w, pos (w + firstLen (cs.drop w))⟩
        ⟨pos 0, pos cs.length, pos cs.length, pos cs.length⟩).reads ≤ (3 * e + i) * firstLen (cs.drop w) + 4 * e := by
      have := eqG_end_cost S H gf (pos 0) (pos 0) w (w + firstLen (cs.drop w)) (by omega) hx
      rw [show w + firstLen (cs.drop w) - w = firstLen (cs.drop w) by omega] at this
      exact reads_le (k := 0) this fun _ _ => by simp
    rw [filterLoop]
    have hneres : ∀ b, ((graphemeInput I gf).ne ⟨pos 0, pos cs.length, pos w, pos (w + firstLen (cs.drop w))⟩
        ⟨pos 0, pos cs.length, pos cs.length, pos cs.length⟩).res = .ok b → (b = true → w < cs.length) := by
      intro b hb hbt
      subst hbt
      refine Nat.lt_of_le_of_ne hw fun h => ?_
      have hg : ((graphemeInput I gf).ne ⟨pos 0, pos cs.length, pos w, pos (w + firstLen (cs.drop w))⟩
        ⟨pos 0, pos cs.length, pos cs.length, pos cs.length⟩).res = .ok false := by
        show (eqG I gf _ _ >>= fun r => pure (!r)).res = _
        rw [res_bind, eqG_res, eqG_sim S gf 0 0 w (w + firstLen (cs.drop w)) cs.length cs.length (by omega) hx
          (Nat.le_refl _) (Nat.le_refl _) hgf]
        simp [h]
      rw [hg] at hb; simp at hb
    by_cases hwn : w = cs.length
    · have hf0 : firstLen (cs.drop w) = 0 := by omega
      have hz0 : (3 * e + i) * firstLen (cs.drop w) = 0 := by rw [hf0, Nat.mul_zero]
      refine Nat.le_trans (reads_le (j := 4 * e) (k := 0) (by omega) fun b hb => ?_) (by omega)
      cases b
      · simp
      · exact absurd (hneres true hb rfl) (by omega)
    · have hpos : 0 < firstLen (cs.drop w) := firstLen_pos (by simp; omega)
      generalize hℓ : firstLen (cs.drop w) = ℓ at *
      have hneB : (3 * e + i) * ℓ + 4 * e ≤ (7 * e + i) * ℓ := by
        have : 4 * e ≤ 4 * e * ℓ := Nat.le_mul_of_pos_right _ hpos
        rw [show 7 * e + i = (3 * e + i) + 4 * e by omega, Nat.add_mul (3 * e + i)]
        exact Nat.add_le_add_left this _
      have hle' := firstLen_le (cs.drop (w + ℓ))
      rw [List.length_drop] at hle'
      have hrest := fun out n => ih (w + ℓ) out n hx
      generalize hℓ' : firstLen (cs.drop (w + ℓ)) = ℓ' at *
      -- the cost of moving on, and of the rest
      have hmove : ((graphemeInput I gf).inc ⟨pos 0, pos cs.length, pos w, pos (w + ℓ)⟩).reads ≤
          (e + d + 22 + i) * ℓ' + (e + d) := by
        have := findEnd_cost S H gf (w + ℓ) hx
        rw [hℓ'] at this
        exact reads_le (k := 0) this fun _ _ => by simp
      have hinc : ∀ g, ((graphemeInput I gf).inc ⟨pos 0, pos cs.length, pos w, pos (w + ℓ)⟩).res = .ok g →
          g = ⟨pos 0, pos cs.length, pos (w + ℓ), pos (w + ℓ + ℓ')⟩ := by
        intro g hg
        have : (gInc I gf ⟨pos 0, pos cs.length, pos w, pos (w + ℓ)⟩).res = .ok g := hg
        rw [gInc_res, GIter.inc] at this
        dsimp only at this
        rw [findEnd_sim S gf (w + ℓ) hx hgf, hℓ'] at this
        simp at this; exact this.symm
      have hCadd := hC.add w (w + ℓ) cs.length (by omega) hx
      have hm1 : (7 * e + i) * (cs.length - w) = (7 * e + i) * ℓ + (7 * e + i) * (cs.length - (w + ℓ)) := by
        rw [← Nat.mul_add]; congr 1; omega
      have tail : (e + d + 22 + i) * ℓ' + (e + d) + (C (w + ℓ) cs.length + (7 * e + i) * (cs.length - (w + ℓ)) +
          (e + d + 22 + i + (e + d)) * (cs.length - (w + ℓ + ℓ')) + (if w + ℓ = cs.length then 4 * e else 5 * e + d)) ≤
          C (w + ℓ) cs.length + (7 * e + i) * (cs.length - (w + ℓ)) +
            (e + d + 22 + i + (e + d)) * (cs.length - (w + ℓ)) + (5 * e + d) := by
        by_cases hend : w + ℓ = cs.length
        · rw [if_pos hend]
          have h0 : ℓ' = 0 := by omega
          rw [h0, Nat.mul_zero, show cs.length - (w + ℓ + 0) = 0 by omega, Nat.mul_zero]
          omega
        · rw [if_neg hend]
          have hp' : 0 < ℓ' := by rw [← hℓ']; exact firstLen_pos (by simp; omega)
          have h2 : (e + d + 22 + i + (e + d)) * (cs.length - (w + ℓ)) =
              (e + d + 22 + i + (e + d)) * ℓ' + (e + d + 22 + i + (e + d)) * (cs.length - (w + ℓ + ℓ')) := by
            rw [← Nat.mul_add]; congr 1; omega
          have h3 : (e + d + 22 + i) * ℓ' + (e + d) ≤ (e + d + 22 + i + (e + d)) * ℓ' := by
            rw [Nat.add_mul _ (e + d)]
            have : e + d ≤ (e + d) * ℓ' := Nat.le_mul_of_pos_right _ hp'
            omega
          omega
      have hrest' : ∀ out n, (filterLoop (graphemeInput I gf) op ⟨pos 0, pos cs.length, pos cs.length, pos cs.length⟩ f
          ⟨pos 0, pos cs.length, pos (w + ℓ), pos (w + ℓ + ℓ')⟩ out n).reads ≤
          C (w + ℓ) cs.length + (7 * e + i) * (cs.length - (w + ℓ)) +
          (e + d + 22 + i + (e + d)) * (cs.length - (w + ℓ + ℓ')) + (if w + ℓ = cs.length then 4 * e else 5 * e + d) := by
        intro out n
        by_cases hend : w + ℓ = cs.length
        · rw [if_pos hend]
          have h0 : ℓ' = 0 := by omega
          cases f with
          | zero => simp [filterLoop]
          | succ f =>
            rw [filterLoop]
            have hne2 := eqG_end_cost S H gf (pos 0) (pos 0) (w + ℓ) (w + ℓ + ℓ') (by omega) (by omega)
            rw [show w + ℓ + ℓ' - (w + ℓ) = 0 by omega, Nat.mul_zero, Nat.zero_add] at hne2
            refine Nat.le_trans (reads_le (j := 4 * e) (k := 0) ?_ fun b hb => ?_) (by omega)
            · exact reads_le (k := 0) hne2 fun _ _ => by simp
            · have hg : ((graphemeInput I gf).ne ⟨pos 0, pos cs.length, pos (w + ℓ), pos (w + ℓ + ℓ')⟩
                ⟨pos 0, pos cs.length, pos cs.length, pos cs.length⟩).res = .ok false := by
                show (eqG I gf _ _ >>= fun r => pure (!r)).res = _
                rw [res_bind, eqG_res, eqG_sim S gf 0 0 (w + ℓ) (w + ℓ + ℓ') cs.length cs.length (by omega) (by omega)
                  (Nat.le_refl _) (Nat.le_refl _) hgf]
                simp [hend]
              rw [hg] at hb; cases hb; simp
        · rw [if_neg hend]; exact hrest out n
      refine Nat.le_trans (reads_le (Nat.le_trans hne hneB) (k := C w (w + ℓ) + ((e + d + 22 + i) * ℓ' + (e + d) +
        (C (w + ℓ) cs.length + (7 * e + i) * (cs.length - (w + ℓ)) + (e + d + 22 + i + (e + d)) * (cs.length - (w + ℓ + ℓ')) +
          (if w + ℓ = cs.length then 4 * e else 5 * e + d)))) fun b _ => ?_) (by omega)
      split
      · show (pure _ >>= _ : Work _).reads ≤ _
        rw [pure_bind]
        refine reads_le (hop w (w + ℓ) out (by omega) hx) fun r _ => ?_
        obtain ⟨kk, out1⟩ := r
        dsimp only
        refine Nat.le_trans (reads_le (j := 0) (by simp) fun n1 _ => ?_) (Nat.le_of_eq (Nat.zero_add _))
        refine reads_le hmove fun g hg => ?_
        rw [hinc g hg]
        exact hrest' out1 n1
      · simp

/-- Going over the graphemes of a text: linear, and the work of the operation. -/
theorem filterGraphemes_cost (S : Sim I.plain pos cs) (H : Cheap I pos cs.length d i k e) {C : Nat → Nat → Nat}
    (hC : Bound C) (op : Grapheme → β → Work (Int × β)) (fuel : Nat) (hf : cs.length < fuel)
    (z : Int) (hz : (I.deref (pos cs.length)).res = .ok (z, pos cs.length))
    (hb : ∀ a, cs.getLast? = some a → brk a z = true)
    (hop : ∀ w x out, w < x → x ≤ cs.length → (op ⟨pos w, pos x⟩ out).reads ≤ C w x) (out : β) :
    (filterGraphemes I fuel (pos 0) (pos cs.length) out op).reads ≤
      C 0 cs.length + (9 * e + 2 * i + 2 * d + 22) * cs.length + (9 * e + 5 * d + k + 22) := by
  have hle := firstLen_le cs
  have h1 : (gBegin I fuel (pos 0) (pos cs.length)).reads ≤ (e + d + 22 + i) * firstLen cs + (e + d) := by
    have := findEnd_cost S H fuel 0 (Nat.zero_le _)
    rw [List.drop_zero] at this
    exact reads_le (k := 0) this fun _ _ => by simp
  have h2 := gEnd_cost S H fuel z hz hb
  have h3 := filterLoop_cost S H hC op fuel hf hop fuel 0 out 0 (Nat.zero_le _)
  simp only [List.drop_zero, Nat.zero_add, Nat.sub_zero] at h3
  have hsplit : (e + d + 22 + i + (e + d)) * cs.length =
      (e + d + 22 + i + (e + d)) * firstLen cs + (e + d + 22 + i + (e + d)) * (cs.length - firstLen cs) := by
    rw [← Nat.mul_add]; congr 1; omega
  have h4 : (e + d + 22 + i) * firstLen cs ≤ (e + d + 22 + i + (e + d)) * firstLen cs := Nat.mul_le_mul_right _ (by omega)
  have h5 : (9 * e + 2 * i + 2 * d + 22) * cs.length =
      (7 * e + i) * cs.length + (e + d + 22 + i + (e + d)) * cs.length := by
    rw [← Nat.add_mul]; congr 1; omega
  rw [filterGraphemes]
  suffices hfin : ∀ g, (gBegin I fuel (pos 0) (pos cs.length)).res = .ok g → ∀ g',
      (gAt I fuel (pos 0) (pos cs.length) (pos cs.length)).res = .ok g' →
      (filter (graphemeInput I fuel) fuel g g' out op).reads ≤
        C 0 cs.length + (7 * e + i) * cs.length + (e + d + 22 + i + (e + d)) * (cs.length - firstLen cs) + (5 * e + d) by
    exact Nat.le_trans (reads_le h1 fun g hg => reads_le h2 fun g' hg' => hfin g hg g' hg') (by omega)
  intro g hg g' hg'
  rw [gBegin_res] at hg
  rw [show U5e.gBegin I.plain fuel (pos 0) (pos cs.length) = _ from graphemeBegin_sim S fuel hf] at hg
  rw [gAt_res] at hg'
  rw [show U5e.gAt I.plain fuel (pos 0) (pos cs.length) (pos cs.length) = _ from graphemeEnd_sim S fuel hf z hz hb] at hg'
  cases hg; cases hg'
  exact h3

end Work
end U5e
