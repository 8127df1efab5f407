import Verif.Proofs.CostGrapheme
/-! How much normalization reads. -/
namespace U5e
open Spec
namespace Work

variable {I : CpIter} {pos : Nat → Nat} {cs : List Int} {d i k e : Nat}

theorem mappingCount_cost (l rest : List Int) (n : Int) : (mappingCount (l ++ 0 :: rest) n).reads ≤ l.length + 1 := by
  induction l generalizing n with
  | nil =>
    rw [List.nil_append, mappingCount]
    exact Nat.le_trans (reads_le (j := 1) (k := 0) (Nat.le_refl _) fun x hx => by cases hx; simp) (by simp)
  | cons a l ih =>
    rw [List.cons_append, mappingCount]
    refine Nat.le_trans (reads_le (j := 1) (k := l.length + 1) (Nat.le_refl _) fun x _ => ?_) (by simp; omega)
    split
    · exact Nat.le_trans (reads_le (j := 0) (by simp) fun n' _ => ih n') (by omega)
    · simp

theorem decomposition_cost {r : Int → Work (Option (List Int))} {map : Int → Option (List Int)} (G : GoodMap map)
    (hr : ∀ c, (r c).res = .ok (map c)) (hc : ∀ c, (r c).reads ≤ 12) (c : Int) (out : List Int) :
    (codepointDecomposition r c out).reads ≤ 13 + (full map c).length := by
  rw [codepointDecomposition, reads_ok (hr c)]
  have h12 := hc c
  cases hm : map c with
  | none => simp only; exact Nat.le_trans (Nat.add_le_add h12 (reads_le (j := 0) (k := 0) (by simp) fun _ _ => by simp)) (by omega)
  | some m =>
    simp only
    have : (mappingCount m 0).reads ≤ (full map c).length + 1 := by
      rw [G.shape c m hm]; exact mappingCount_cost _ _ _
    exact Nat.le_trans (Nat.add_le_add h12 (reads_le (k := 0) this fun n _ =>
      reads_le (j := 0) (k := 0) (by simp) fun _ _ => by simp)) (by omega)

/-- Length of the decomposition of the first `x` codepoints. -/
def upto (map : Int → Option (List Int)) (cs : List Int) (x : Nat) : Nat := (decompose map (cs.take x)).length

theorem upto_succ {map} {cs : List Int} {w : Nat} {c : Int} (h : cs[w]? = some c) :
    upto map cs (w + 1) = upto map cs w + (full map c).length := by
  rw [upto, upto, List.take_add_one, h]
  simp [decompose, List.flatMap_append]

theorem upto_mono {map} {cs : List Int} {w x : Nat} (h : w ≤ x) : upto map cs w ≤ upto map cs x := by
  have : cs.take x = cs.take w ++ (cs.take x).drop w := by
    conv => lhs; rw [← List.take_append_drop w (cs.take x)]
    rw [List.take_take, Nat.min_eq_left h]
  rw [upto, upto, this, decompose, decompose, List.flatMap_append, List.length_append]
  omega

/-- Decomposing a range of codepoints. -/
theorem decompose_cost (S : Sim I.plain pos cs) (H : Cheap I pos cs.length d i k e)
    {r : Int → Work (Option (List Int))} {map : Int → Option (List Int)} (G : GoodMap map)
    (hr : ∀ c, (r c).res = .ok (map c)) (hc : ∀ c, (r c).reads ≤ 12) (x : Nat) (hx : x ≤ cs.length) (fuel : Nat) :
    ∀ (w : Nat) (out : List Int) (n : Int), w ≤ x →
    (filterLoop I.input (codepointDecomposition r) (pos x) fuel (pos w) out n).reads ≤
      (e + d + i + 13) * (x - w) + (upto map cs x - upto map cs w) + e ∧
    ∀ n' out', (filterLoop I.input (codepointDecomposition r) (pos x) fuel (pos w) out n).res = .ok (n', out') →
      out'.length = out.length + (upto map cs x - upto map cs w) := by
  induction fuel with
  | zero => intros; simp [filterLoop]
  | succ f ih =>
    intro w out n hw
    have hne : (I.input.ne (pos w) (pos x)).res = .ok (decide (w ≠ x)) := by
      show (I.eq (pos w) (pos x) >>= fun r => pure (!r)).res = _
      rw [res_bind, show (I.eq (pos w) (pos x)).res = _ from S.eq w x (by omega) hx]
      simp
    have hnec : (I.input.ne (pos w) (pos x)).reads ≤ e := reads_le (k := 0) (H.eq w _ (by omega)) fun _ _ => by simp
    rw [filterLoop, reads_ok hne, res_bind, hne, Res.bind_ok]
    by_cases h : w = x
    · subst h
      simp only [ne_eq, not_true_eq_false, decide_false, Bool.false_eq_true, if_false, reads_pure, res_pure]
      refine ⟨by omega, fun n' out' he => ?_⟩
      cases he; omega
    · rw [if_pos (by simpa using h)]
      obtain ⟨c, hcw, _⟩ := drop_cons_of_lt (l := cs) (i := w) (by omega)
      have hd : (I.input.deref (pos w)).res = .ok (c, pos w) := S.deref w c hcw
      have hdc : (I.input.deref (pos w)).reads ≤ d := H.deref w (by omega)
      rw [reads_ok hd, res_bind, hd, Res.bind_ok]
      dsimp only
      have ho : (codepointDecomposition r c out).res = .ok (((full map c).length : Int), out ++ full map c) := by
        rw [codepointDecomposition_res r map hr, codepointDecomposition_eq G]
      have hoc := decomposition_cost G hr hc c out
      rw [reads_ok ho, res_bind, ho, Res.bind_ok]
      dsimp only
      have hu := upto_succ (map := map) hcw
      have hm := upto_mono (map := map) (cs := cs) (show w + 1 ≤ x by omega)
      have hmul : (e + d + i + 13) * (x - w) = (e + d + i + 13) * (x - (w + 1)) + (e + d + i + 13) := by
        rw [← Nat.mul_succ]; congr 1; omega
      have hi : (I.input.inc (pos w)).res = .ok (pos (w + 1)) := S.inc w (by omega)
      have hic : (I.input.inc (pos w)).reads ≤ i := H.inc w (by omega)
      cases ha : addInt n ((full map c).length : Int) with
      | ok n1 =>
        rw [reads_ok (a := n1) (by simp), reads_ok hi, res_bind, res_free, Res.bind_ok, res_bind, hi, Res.bind_ok]
        obtain ⟨h1, h2⟩ := ih (w + 1) (out ++ full map c) n1 (by omega)
        refine ⟨by simp only [reads_free]; omega, fun n' out' he => ?_⟩
        have := h2 n' out' he
        rw [List.length_append] at this
        omega
      | ub =>
        constructor
        · have : (free (Res.ub : Res Int) >>= fun n1 => I.input.inc (pos w) >>= fun p =>
            filterLoop I.input (codepointDecomposition r) (pos x) f p (out ++ full map c) n1).reads ≤ 0 + 0 :=
            reads_le (by simp) fun a ha => by simp at ha
          omega
        · intro n' out' he
          rw [res_bind] at he; simp at he
      | tmo => simp only [addInt] at ha; split at ha <;> simp at ha

theorem wr32_length {m m' : List Int} {p : Nat} {v : Int} (h : wr32 m p v = .ok m') : m'.length = m.length := by
  rw [wr32] at h
  split at h
  · cases h; simp
  · simp at h

theorem composition_cost (fuel : Nat) : ∀ (data : List Int) (oi j : Nat) (n : Int), j ≤ data.length →
    (compositionLoop fuel data oi j n).reads ≤ 12 * (data.length - j) := by
  induction fuel with
  | zero => intros; simp [compositionLoop]
  | succ f ih =>
    intro data oi j n hj
    rw [compositionLoop]
    split
    · simp
    · rename_i hne
      refine Nat.le_trans (reads_le (j := 1) (k := 11 + 12 * (data.length - (j + 1))) (Nat.le_refl _) fun a _ => ?_) (by omega)
      split
      · refine Nat.le_trans (reads_le (j := 0) (k := 12 * (data.length - (j + 1))) (by simp) fun data1 hw => ?_) (by omega)
        have := wr32_length hw
        rw [← this]; exact ih _ _ _ _ (by omega)
      · refine Nat.le_trans (reads_le (j := 1) (k := 10 + 12 * (data.length - (j + 1))) (Nat.le_refl _) fun b _ => ?_) (by omega)
        refine reads_le (comp_le a b) fun r _ => ?_
        split
        · refine Nat.le_trans (reads_le (j := 0) (k := 12 * (data.length - (j + 1))) (by simp) fun data1 hw => ?_) (by omega)
          refine Nat.le_trans (reads_le (j := 0) (k := 12 * (data.length - (j + 1))) (by simp) fun n1 _ => ?_) (by omega)
          have := wr32_length hw
          rw [← this]; exact ih _ _ _ _ (by omega)
        · refine Nat.le_trans (reads_le (j := 0) (k := 12 * (data.length - (j + 1))) (by simp) fun data1 hw => ?_) (by omega)
          have := wr32_length hw
          rw [← this]; exact ih _ _ _ _ (by omega)

theorem finish_cost (F : Form) (append : AppendFn β) (n : Int) (s : List Int) (out : β) :
    (finish F append n s out).reads ≤ 12 * s.length := by
  have hD : (free (append out s) >>= fun o => pure (n, o) : Work (Int × β)).reads ≤ 12 * s.length :=
    Nat.le_trans (reads_le (j := 0) (k := 0) (by simp) fun _ _ => by simp) (by omega)
  have hC : (canonicalComposition (s.length + 1) s 0 >>= fun x => free (append out (x.1.take x.2.1)) >>= fun o =>
      free (addInt n (-x.2.2)) >>= fun r => pure (r, o) : Work (Int × β)).reads ≤ 12 * s.length := by
    refine reads_le (k := 0) (composition_cost _ s 0 0 0 (Nat.zero_le _)) fun x _ => ?_
    exact reads_le (j := 0) (k := 0) (by simp) fun _ _ => reads_le (j := 0) (k := 0) (by simp) fun _ _ => by simp
  cases F
  · exact hD
  · exact hC
  · exact hD
  · exact hC

theorem resolver_res (F : Form) (c : Int) : (resolver F c).res = .ok (F.map c) := by
  cases F <;> simp [resolver, Form.map, decResolve_res, kdecResolve_res]

theorem resolver_le (F : Form) (c : Int) : (resolver F c).reads ≤ 12 := by
  cases F <;> simp [resolver, dec_le, kdec_le]

theorem goodMap (F : Form) : GoodMap F.map := by
  cases F
  · exact goodD
  · exact goodD
  · exact goodK
  · exact goodK

theorem sum_le (l : List (Int × Int)) : (l.map fun ab => (combiningOrder ab.1 ab.2).reads).sum ≤ 20 * l.length := by
  induction l with
  | nil => simp
  | cons a l ih =>
    have := order_le a.1 a.2
    simp only [List.map_cons, List.sum_cons, List.length_cons]; omega

/-- Normalizing one grapheme. -/
theorem runForm_cost (S : Sim I.plain pos cs) (H : Cheap I pos cs.length d i k e) (F : Form) {sort : SortFn}
    (hs : ConformingSort sort) {compared : List Int → List (Int × Int)} {T : Nat → Nat}
    (hT : ∀ l, (compared l).length ≤ T l.length) (append : AppendFn β) (fuel w x : Nat) (hw : w < x)
    (hx : x ≤ cs.length) (out : β) :
    (runForm F sort compared append I fuel ⟨pos w, pos x⟩ out).reads ≤
      (2 * e + d + i + 13) * (x - w) + 13 * (upto F.map cs x - upto F.map cs w) +
        20 * T (upto F.map cs x - upto F.map cs w) := by
  obtain ⟨h1, h2⟩ := decompose_cost S H (goodMap F) (resolver_res F) (resolver_le F) x hx fuel w [] 0 (by omega)
  have he : e ≤ e * (x - w) := Nat.le_mul_of_pos_right _ (by omega)
  have hm : (2 * e + d + i + 13) * (x - w) = (e + d + i + 13) * (x - w) + e * (x - w) := by
    rw [← Nat.add_mul]; congr 1; omega
  rw [runForm]
  refine Nat.le_trans (reads_le h1 (k := 20 * T (upto F.map cs x - upto F.map cs w) +
    12 * (upto F.map cs x - upto F.map cs w)) fun r hr => ?_) (by omega)
  obtain ⟨n, l⟩ := r
  have hl := h2 n l hr
  simp only [List.length_nil, Nat.zero_add] at hl
  dsimp only
  refine reads_le ?_ fun s hsr => ?_
  · refine Nat.le_trans (sum_le _) ?_
    have := hT l
    rw [hl] at this
    omega
  · have : s = sort canonicalCombiningOrder l := by
      simp [sorted] at hsr; exact hsr.symm
    have hsl : s.length = l.length := by rw [this]; exact (hs.perm _).length_eq
    have := finish_cost F append n s out
    rw [hsl, hl] at this
    exact this

/-- Normalizing a text. -/
theorem normalizeText_cost (S : Sim I.plain pos cs) (H : Cheap I pos cs.length d i k e) (F : Form) {sort : SortFn}
    (hs : ConformingSort sort) {compared : List Int → List (Int × Int)} {T : Nat → Nat}
    (hT : ∀ l, (compared l).length ≤ T l.length) (hTadd : ∀ a b, T a + T b ≤ T (a + b)) (append : AppendFn β)
    (fuel : Nat) (hf : cs.length < fuel) (z : Int) (hz : (I.deref (pos cs.length)).res = .ok (z, pos cs.length))
    (hb : ∀ a, cs.getLast? = some a → U5e.isGraphemeBoundary a z = true) (out : β) :
    (normalizeText F sort compared append I fuel (pos 0) (pos cs.length) out).reads ≤
      (11 * e + 3 * i + 3 * d + 35) * cs.length + 13 * (decompose F.map cs).length +
        20 * T (decompose F.map cs).length + (9 * e + 5 * d + k + 22) := by
  have hB : Bound fun w x => (2 * e + d + i + 13) * (x - w) + 13 * (upto F.map cs x - upto F.map cs w) +
      20 * T (upto F.map cs x - upto F.map cs w) := by
    constructor
    intro w x y hwx hxy
    have h1 := upto_mono (map := F.map) (cs := cs) hwx
    have h2 := upto_mono (map := F.map) (cs := cs) hxy
    have h3 := hTadd (upto F.map cs x - upto F.map cs w) (upto F.map cs y - upto F.map cs x)
    rw [show upto F.map cs x - upto F.map cs w + (upto F.map cs y - upto F.map cs x) =
      upto F.map cs y - upto F.map cs w by omega] at h3
    have h4 : (2 * e + d + i + 13) * (x - w) + (2 * e + d + i + 13) * (y - x) = (2 * e + d + i + 13) * (y - w) := by
      rw [← Nat.mul_add]; congr 1; omega
    omega
  have := filterGraphemes_cost S H hB (runForm F sort compared append I fuel) fuel hf z hz hb
    (fun w x out hw hx => runForm_cost S H F hs hT append fuel w x hw hx out) out
  have h0 : upto F.map cs 0 = 0 := by simp [upto, decompose]
  have hn : upto F.map cs cs.length = (decompose F.map cs).length := by rw [upto, List.take_length]
  rw [h0, hn, Nat.sub_zero, Nat.sub_zero] at this
  have h5 : (11 * e + 3 * i + 3 * d + 35) * cs.length =
      (2 * e + d + i + 13) * cs.length + (9 * e + 2 * i + 2 * d + 22) * cs.length := by
    rw [← Nat.add_mul]; congr 1; omega
  rw [normalizeText]
  omega

end Work
end U5e
