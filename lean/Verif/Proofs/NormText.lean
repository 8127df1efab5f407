import Verif.Proofs.Normalize
/-! The four forms on a grapheme and on a text, as functions on lists. -/
namespace U5e
open Spec Data

theorem cco_strictWeak : StrictWeak canonicalCombiningOrder where
  irrefl a := by simp [canonicalCombiningOrder]
  trans a b c h1 h2 := by simp [canonicalCombiningOrder] at *; omega
  incomp a b c h1 h2 h3 h4 := by simp [canonicalCombiningOrder] at *; omega

theorem Spec.ConformingSort.perm {sort} (h : ConformingSort sort) (l : List Int) :
    (sort canonicalCombiningOrder l).Perm l := (h _ cco_strictWeak l).1

theorem Spec.ConformingSort.sorted {sort} (h : ConformingSort sort) (l : List Int) :
    CccSorted cccResolve (sort canonicalCombiningOrder l) := by
  refine (h _ cco_strictWeak l).2.imp ?_
  intro a b hab
  simp [canonicalCombiningOrder] at hab; omega

variable {I : CpIter} {pos : Nat → Nat} {cs : List Int}

theorem slice_eq {i : Nat} {g : List Int} (h : (cs.drop i).take g.length = g) :
    (cs.take (i + g.length)).drop i = g := by
  rw [List.drop_take, Nat.add_sub_cancel_left, h]

/-- Decomposing a grapheme. -/
theorem decompose_sim {map} (G : GoodMap map) (S : Sim I pos cs) (fuel : Nat) (hf : cs.length < fuel)
    (i : Nat) (g : List Int) (hg : (cs.drop i).take g.length = g) (hi : i + g.length ≤ cs.length)
    (hb : (decompose map g).length ≤ 2147483647) :
    filter I.input fuel (pos i) (pos (i + g.length)) [] (codepointDecomposition map) =
      .ok ((decompose map g).length, decompose map g) := by
  have ht := traverses_codepoints S i (i + g.length) (by omega) hi
  rw [slice_eq hg] at ht
  rw [filter_decompose G ht fuel (by omega) [] hb]; rfl

theorem compose_length_le (comp) (l : List Int) : (compose comp l).length ≤ l.length := by
  cases l with
  | nil => simp [compose]
  | cons a l => exact composeFrom_length comp a l

theorem formD_sim (S : Sim I pos cs) (fuel : Nat) (hf : cs.length < fuel) (sort : SortFn)
    (append : AppendFn β) (i : Nat) (g : List Int) (hg : (cs.drop i).take g.length = g)
    (hi : i + g.length ≤ cs.length) (hb : (decompose decResolve g).length ≤ 2147483647) (out : β) :
    normalizationFormD sort append I fuel ⟨pos i, pos (i + g.length)⟩ out =
      (append out (sort canonicalCombiningOrder (decompose decResolve g)) >>= fun o =>
        .ok (((decompose decResolve g).length : Int), o)) := by
  simp only [normalizationFormD]
  rw [canonicalDecomposition, decompose_sim goodD S fuel hf i g hg hi hb]; rfl

theorem formKD_sim (S : Sim I pos cs) (fuel : Nat) (hf : cs.length < fuel) (sort : SortFn)
    (append : AppendFn β) (i : Nat) (g : List Int) (hg : (cs.drop i).take g.length = g)
    (hi : i + g.length ≤ cs.length) (hb : (decompose kdecResolve g).length ≤ 2147483647) (out : β) :
    normalizationFormKD sort append I fuel ⟨pos i, pos (i + g.length)⟩ out =
      (append out (sort canonicalCombiningOrder (decompose kdecResolve g)) >>= fun o =>
        .ok (((decompose kdecResolve g).length : Int), o)) := by
  simp only [normalizationFormKD]
  rw [compatibilityDecomposition, decompose_sim goodK S fuel hf i g hg hi hb]; rfl

theorem composed_tail {sort : SortFn} (hs : ConformingSort sort) (append : AppendFn β) (d : List Int)
    (hb : d.length ≤ 2147483647) (out : β) :
    (do
      let (data, oi, compositions) ← canonicalComposition
        ((sort canonicalCombiningOrder d).length + 1) (sort canonicalCombiningOrder d) 0
      let o ← append out (data.take oi)
      let r ← addInt (d.length : Int) (-compositions)
      pure (r, o)) =
      (append out (compose compResolve (sort canonicalCombiningOrder d)) >>= fun o =>
        (.ok (((compose compResolve (sort canonicalCombiningOrder d)).length : Int), o) : Res (Int × β))) := by
  have hlen := (hs.perm d).length_eq
  generalize sort canonicalCombiningOrder d = w at hlen ⊢
  obtain ⟨data, h1, h2, _⟩ := canonicalComposition_eq (w.length + 1) w 0 (by omega) (by omega)
    (by omega)
  have hle := compose_length_le compResolve w
  rw [h1]
  simp only [Res.bind_ok, h2]
  congr 1
  funext o
  rw [addInt_ok (by omega) (by omega), Res.bind_ok, Res.pure_eq]
  congr 2; omega

theorem formC_sim (S : Sim I pos cs) (fuel : Nat) (hf : cs.length < fuel) {sort : SortFn}
    (hs : ConformingSort sort)
    (append : AppendFn β) (i : Nat) (g : List Int) (hg : (cs.drop i).take g.length = g)
    (hi : i + g.length ≤ cs.length) (hb : (decompose decResolve g).length ≤ 2147483647) (out : β) :
    normalizationFormC sort append I fuel ⟨pos i, pos (i + g.length)⟩ out =
      (append out (compose compResolve (sort canonicalCombiningOrder (decompose decResolve g))) >>= fun o =>
        .ok (((compose compResolve
          (sort canonicalCombiningOrder (decompose decResolve g))).length : Int), o)) := by
  simp only [normalizationFormC]
  rw [canonicalDecomposition, decompose_sim goodD S fuel hf i g hg hi hb]
  exact composed_tail hs append _ hb out

theorem formKC_sim (S : Sim I pos cs) (fuel : Nat) (hf : cs.length < fuel) {sort : SortFn}
    (hs : ConformingSort sort)
    (append : AppendFn β) (i : Nat) (g : List Int) (hg : (cs.drop i).take g.length = g)
    (hi : i + g.length ≤ cs.length) (hb : (decompose kdecResolve g).length ≤ 2147483647) (out : β) :
    normalizationFormKC sort append I fuel ⟨pos i, pos (i + g.length)⟩ out =
      (append out (compose compResolve (sort canonicalCombiningOrder (decompose kdecResolve g))) >>= fun o =>
        .ok (((compose compResolve
          (sort canonicalCombiningOrder (decompose kdecResolve g))).length : Int), o)) := by
  simp only [normalizationFormKC]
  rw [compatibilityDecomposition, decompose_sim goodK S fuel hf i g hg hi hb]
  exact composed_tail hs append _ hb out

/-- Folding an operation over the graphemes at their positions. -/
theorem foldlM_segPos (op : Grapheme → β → Res (Int × β)) (cnt : List Int → Int)
    (nxt : List Int → β → β) (gs : List (List Int)) (i : Nat) (hcs : cs.drop i = gs.flatten)
    (hi : i ≤ cs.length)
    (hop : ∀ g ∈ gs, ∀ i, (cs.drop i).take g.length = g → i + g.length ≤ cs.length → ∀ o,
      op ⟨pos i, pos (i + g.length)⟩ o = .ok (cnt g, nxt g o))
    (hcnt : ∀ g ∈ gs, 0 ≤ cnt g) (k : Int) (out : β) (hk : 0 ≤ k)
    (hb : k + (gs.map cnt).sum ≤ 2147483647) :
    (segPos pos i gs).foldlM (accum op) (k, out) =
      .ok (k + (gs.map cnt).sum, gs.foldl (fun o g => nxt g o) out) := by
  induction gs generalizing i k out with
  | nil => simp [segPos]
  | cons g gs ih =>
    have hlen := congrArg List.length hcs
    rw [List.length_drop, List.flatten_cons, List.length_append] at hlen
    have hnn : ∀ l : List (List Int), (∀ g ∈ l, 0 ≤ cnt g) → 0 ≤ (l.map cnt).sum := by
      intro l
      induction l with
      | nil => intro _; simp
      | cons x l ihl =>
        intro h
        have := h x (by simp)
        have := ihl (fun y hy => h y (by simp [hy]))
        rw [List.map_cons, List.sum_cons]; omega
    have h0 := hnn gs (fun y hy => hcnt y (by simp [hy]))
    have hg0 := hcnt g (by simp)
    rw [List.map_cons, List.sum_cons] at hb ⊢
    have h1 : (cs.drop i).take g.length = g := by rw [hcs]; simp
    have h2 : cs.drop (i + g.length) = gs.flatten := by rw [← List.drop_drop, hcs]; simp
    rw [segPos, List.foldlM_cons]
    have hacc : accum op (k, out) ⟨pos i, pos (i + g.length)⟩ = .ok (k + cnt g, nxt g out) := by
      simp only [accum]
      rw [hop g (by simp) i h1 (by omega) out]
      simp only [Res.bind_ok]
      rw [addInt_ok (by omega) (by omega)]; rfl
    rw [hacc, Res.bind_ok, ih (i + g.length) h2 (by omega)
      (fun x hx => hop x (by simp [hx])) (fun x hx => hcnt x (by simp [hx])) _ _ (by omega) (by omega)]
    rw [List.foldl_cons, Int.add_assoc]

theorem sum_lengths (f : List Int → List Int) (gs : List (List Int)) :
    (gs.map (fun g => ((f g).length : Int))).sum = ((gs.flatMap f).length : Int) := by
  induction gs with
  | nil => rfl
  | cons g gs ih => rw [List.map_cons, List.sum_cons, ih, List.flatMap_cons, List.length_append]; simp

/-- A text-level form whose effect on a grapheme is to append `enc (f g)` and return its number of
codepoints. -/
theorem normalizeText_sim {α : Type} (S : Sim I pos cs) (fuel : Nat) (hf : cs.length < fuel)
    (z : Int) (hz : I.deref (pos cs.length) = .ok (z, pos cs.length))
    (hzb : ∀ a, cs.getLast? = some a → isGraphemeBoundary a z = true)
    (form : CpIter → Nat → Grapheme → List α → Res (Int × List α)) (f : List Int → List Int)
    (enc : List Int → List α)
    (hop : ∀ g ∈ segments isGraphemeBoundary cs, ∀ i, (cs.drop i).take g.length = g →
      i + g.length ≤ cs.length → ∀ o,
      form I fuel ⟨pos i, pos (i + g.length)⟩ o = .ok (((f g).length : Int), o ++ enc (f g)))
    (hb : ((segments isGraphemeBoundary cs).flatMap f).length ≤ 2147483647) (out : List α) :
    normalizeText form I fuel (pos 0) (pos cs.length) out =
      .ok (((segments isGraphemeBoundary cs).flatMap f).length,
        out ++ (segments isGraphemeBoundary cs).flatMap (fun g => enc (f g))) := by
  rw [normalizeText, filterGraphemes_sim S fuel hf z hz hzb]
  rw [foldlM_segPos (form I fuel) (fun g => ((f g).length : Int)) (fun g o => o ++ enc (f g))
    (segments isGraphemeBoundary cs) 0 (by rw [segments_flatten]; rfl) (Nat.zero_le _) hop
    (fun g _ => by omega) 0 out (by omega) (by rw [sum_lengths]; omega)]
  rw [sum_lengths, foldl_append_flatMap, Int.zero_add]

end U5e
