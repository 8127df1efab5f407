import Verif.Model.Throw
import Verif.Properties.NormalizeUtf8
/-! Running `filter` and the forms until an exception. -/
namespace U5e
open Spec

/-- The loop of `filter` over a list. -/
def foldMX (op : α → β → Nat → Res (Call Int β)) : List α → Int → β → Nat → Res (Call Int β)
  | [], c, o, k => .ok (.ret c o k)
  | x :: xs, c, o, k => do
    match ← op x o k with
    | .threw o1 => pure (.threw o1)
    | .ret n o1 k1 =>
      let c1 ← addInt c n
      foldMX op xs c1 o1 k1

theorem filterLoopX_eq (it : InputIter σ α) (op : α → β → Nat → Res (Call Int β)) {s t : σ} {xs : List α}
    (h : Traverses it s t xs) (fuel : Nat) (hf : xs.length < fuel) (out : β) (c : Int) (k : Nat) :
    filterLoopX it op t fuel s out c k = foldMX op xs c out k := by
  induction h generalizing fuel out c k with
  | done hne =>
    cases fuel with
    | zero => simp at hf
    | succ f => simp [filterLoopX, hne, foldMX]
  | step hne hd hi _ ih =>
    cases fuel with
    | zero => simp at hf
    | succ f =>
      simp only [filterLoopX, hne, hd, hi, Res.bind_ok, if_true, foldMX]
      cases hop : op _ out k with
      | ub => simp
      | tmo => simp
      | ok r =>
        simp only [Res.bind_ok]
        cases r with
        | threw o => rfl
        | ret n o k1 =>
          simp only
          cases ha : addInt c n with
          | ub => simp
          | tmo => simp
          | ok c' =>
            simp only [Res.bind_ok]
            exact ih f (by simpa using hf) o c' k1

/-- The effect of a call that needs `cost` successful allocations. -/
def costed (cost : Nat) (n : γ) (full part : β) (k : Nat) : Call γ β :=
  if cost ≤ k then .ret n full (k - cost) else .threw part

theorem appendCall_eq (a : γ) (old new : β) (k : Nat) : appendCall a old new k = costed 1 a new old k := by
  cases k with
  | zero => rfl
  | succ k => simp [appendCall, costed]

/-- Sum of costs. -/
def total (cost : α → Nat) (xs : List α) : Nat := (xs.map cost).sum

theorem total_cons (cost : α → Nat) (x : α) (xs : List α) : total cost (x :: xs) = cost x + total cost xs := by
  simp [total]

theorem int_sum_nonneg (cnt : α → Int) (xs : List α) (h : ∀ x ∈ xs, 0 ≤ cnt x) : 0 ≤ (xs.map cnt).sum := by
  induction xs with
  | nil => simp
  | cons x xs ih =>
    have := h x (by simp)
    have := ih (fun y hy => h y (by simp [hy]))
    simp; omega

/-- The whole loop over graphemes (or codepoints) whose calls are `costed`. -/
theorem foldMX_costed {ι : Type} (at_ : ι → α) (op : α → β → Nat → Res (Call Int β)) (cost : ι → Nat)
    (cnt : ι → Int) (nxt : ι → β → β) (part : ι → β → Nat → β) (xs : List ι)
    (hop : ∀ x ∈ xs, ∀ o k, op (at_ x) o k = .ok (costed (cost x) (cnt x) (nxt x o) (part x o k) k))
    (hcnt : ∀ x ∈ xs, 0 ≤ cnt x) (c : Int) (hc : 0 ≤ c) (out : β)
    (hb : c + (xs.map cnt).sum ≤ 2147483647) (k : Nat) :
    (total cost xs ≤ k → foldMX op (xs.map at_) c out k =
      .ok (.ret (c + (xs.map cnt).sum) (xs.foldl (fun o x => nxt x o) out) (k - total cost xs))) ∧
    (k < total cost xs → ∃ j, ∃ h : j < xs.length, total cost (xs.take j) ≤ k ∧ k < total cost (xs.take (j + 1)) ∧
      foldMX op (xs.map at_) c out k =
        .ok (.threw (part xs[j] ((xs.take j).foldl (fun o x => nxt x o) out) (k - total cost (xs.take j))))) := by
  induction xs generalizing c out k with
  | nil =>
    constructor
    · intro _; simp [foldMX, total]
    · intro h; simp [total] at h
  | cons x xs ih =>
    have hx := hcnt x (by simp)
    have hs := int_sum_nonneg cnt xs (fun y hy => hcnt y (by simp [hy]))
    simp only [List.map_cons, List.sum_cons] at hb
    by_cases hk : cost x ≤ k
    · obtain ⟨h1, h2⟩ := ih (fun y hy => hop y (by simp [hy])) (fun y hy => hcnt y (by simp [hy])) (c + cnt x)
        (by omega) (nxt x out) (by omega) (k - cost x)
      have hstep : foldMX op ((x :: xs).map at_) c out k =
          foldMX op (xs.map at_) (c + cnt x) (nxt x out) (k - cost x) := by
        rw [List.map_cons, foldMX, hop x (by simp), costed, if_pos hk]
        simp only [Res.bind_ok]
        rw [addInt_ok (by omega) (by omega)]
        rfl
      rw [hstep]
      constructor
      · intro hle
        rw [total_cons] at hle
        rw [h1 (by omega), total_cons]
        simp only [List.map_cons, List.sum_cons, List.foldl_cons]
        congr 2
        · omega
        · omega
      · intro hlt
        rw [total_cons] at hlt
        obtain ⟨j, hj, a1, a2, a3⟩ := h2 (by omega)
        refine ⟨j + 1, by simpa using hj, ?_, ?_, ?_⟩
        · rw [List.take_succ_cons, total_cons]; omega
        · rw [List.take_succ_cons, total_cons]; omega
        · rw [a3]
          simp only [List.take_succ_cons, List.getElem_cons_succ, total_cons, List.foldl_cons]
          congr 3; omega
    · constructor
      · intro hle; rw [total_cons] at hle; omega
      · intro hlt
        refine ⟨0, by simp, by simp [total], by simpa [total] using hk, ?_⟩
        rw [List.map_cons, foldMX, hop x (by simp), costed, if_neg hk]
        simp [total]

/-- One codepoint: one append. -/
theorem codepointDecompositionX_eq {map} (G : GoodMap map) (c : Int) (out : List Int) (k : Nat) :
    codepointDecompositionX map c out k =
      .ok (costed 1 ((full map c).length : Int) (out ++ full map c) out k) := by
  have h := codepointDecomposition_eq G c out
  simp only [codepointDecomposition] at h
  simp only [codepointDecompositionX]
  cases hm : map c with
  | none =>
    rw [hm] at h
    simp only at h ⊢
    cases hr : appendRange32 out [c] 0 1 with
    | ok o =>
      rw [hr] at h
      simp only [Res.bind_ok, Res.pure_eq, Res.ok.injEq, Prod.mk.injEq] at h ⊢
      rw [appendCall_eq, h.1, h.2]
    | ub => rw [hr] at h; simp at h
    | tmo => rw [hr] at h; simp at h
  | some m =>
    rw [hm] at h
    simp only at h ⊢
    cases hq : mappingCount m 0 with
    | ub => rw [hq] at h; simp at h
    | tmo => rw [hq] at h; simp at h
    | ok n =>
      rw [hq] at h
      simp only [Res.bind_ok] at h ⊢
      cases hr : appendRange32 out m 0 n.toNat with
      | ok o =>
        rw [hr] at h
        simp only [Res.bind_ok, Res.pure_eq, Res.ok.injEq, Prod.mk.injEq] at h ⊢
        rw [appendCall_eq, h.1, h.2]
      | ub => rw [hr] at h; simp at h
      | tmo => rw [hr] at h; simp at h

variable {I : CpIter} {pos : Nat → Nat} {cs : List Int}

theorem total_one (xs : List α) : total (fun _ => 1) xs = xs.length := by
  induction xs with
  | nil => rfl
  | cons x xs ih => rw [total_cons, ih, List.length_cons]; omega

/-- Decomposing a grapheme: one append per codepoint, into a temporary. -/
theorem decomposeX_sim {map} (G : GoodMap map) (S : Sim I pos cs) (fuel : Nat) (hf : cs.length < fuel)
    (i : Nat) (g : List Int) (hg : (cs.drop i).take g.length = g) (hi : i + g.length ≤ cs.length)
    (hb : (decompose map g).length ≤ 2147483647) (k : Nat) :
    (g.length ≤ k → filterX I.input fuel (pos i) (pos (i + g.length)) [] (codepointDecompositionX map) k =
      .ok (.ret ((decompose map g).length : Int) (decompose map g) (k - g.length))) ∧
    (k < g.length → ∃ o, filterX I.input fuel (pos i) (pos (i + g.length)) [] (codepointDecompositionX map) k =
      .ok (.threw o)) := by
  have ht := traverses_codepoints S i (i + g.length) (by omega) hi
  rw [slice_eq hg] at ht
  have h := foldMX_costed (fun x : Int => x) (codepointDecompositionX map) (fun _ => 1)
    (fun x => ((full map x).length : Int)) (fun x o => o ++ full map x) (fun _ o _ => o) g
    (fun x _ o k => codepointDecompositionX_eq G x o k) (fun x _ => by omega) 0 (by omega) []
    (by rw [sum_length_decompose]; omega) k
  rw [total_one, List.map_id'] at h
  rw [filterX, filterLoopX_eq _ _ ht fuel (by omega)]
  constructor
  · intro hk
    rw [h.1 hk, sum_length_decompose, foldl_append_flatMap, Int.zero_add]
    rfl
  · intro hk
    obtain ⟨j, hj, _, _, h3⟩ := h.2 hk
    exact ⟨_, h3⟩

theorem composed_tailX (append : AppendXFn β) (w : List Int) (n : Nat) (hn : w.length = n)
    (hb : n ≤ 2147483647) (out : β) (k : Nat) :
    (canonicalComposition (n + 1) w 0 >>= fun r =>
      append out (r.1.take r.2.1) k >>= fun q => match q with
        | .threw o => .ok (.threw o)
        | .ret _ o k2 => addInt (n : Int) (-r.2.2) >>= fun m => (.ok (.ret m o k2) : Res (Call Int β))) =
      (append out (compose compResolve w) k >>= fun r => match r with
        | .threw o => .ok (.threw o)
        | .ret _ o k1 => .ok (.ret ((compose compResolve w).length : Int) o k1)) := by
  obtain ⟨data, g1, g2, g3⟩ := canonicalComposition_eq (w.length + 1) w 0 (by omega) (by omega) (by omega)
  rw [hn] at g1
  rw [g1]
  simp only [Res.bind_ok, g2]
  have hle := compose_length_le compResolve w
  congr 1
  funext r
  cases r with
  | threw o => rfl
  | ret _ o k1 =>
    simp only
    rw [addInt_ok (by omega) (by omega)]
    simp only [Res.bind_ok]
    congr 2; omega

/-- A form on a grapheme: decomposing throws before anything is written, or the result is appended. -/
theorem Form.runX_sim (F : Form) (S : Sim I pos cs) (fuel : Nat) (hf : cs.length < fuel) {sort : SortFn}
    (hs : ConformingSort sort)
    (append : AppendXFn β) (i : Nat) (g : List Int) (hg : (cs.drop i).take g.length = g)
    (hi : i + g.length ≤ cs.length) (hb : (decompose F.map g).length ≤ 2147483647) (out : β) (k : Nat) :
    F.runX sort append I fuel ⟨pos i, pos (i + g.length)⟩ out k =
      if k < g.length then .ok (.threw out)
      else append out (F.result sort g) (k - g.length) >>= fun r => match r with
        | .threw o => .ok (.threw o)
        | .ret _ o k1 => .ok (.ret ((F.result sort g).length : Int) o k1) := by
  obtain ⟨h1, h2⟩ := decomposeX_sim F.good S fuel hf i g hg hi hb k
  by_cases hk : k < g.length
  · rw [if_pos hk]
    obtain ⟨o, ho⟩ := h2 hk
    cases F <;> simp only [Form.runX, normalizationFormDX, normalizationFormCX, normalizationFormKDX,
      normalizationFormKCX] <;> simp only [Form.map] at ho <;> rw [ho] <;> rfl
  · rw [if_neg hk]
    have ho := h1 (by omega)
    have hlen := (hs.perm (decompose F.map g)).length_eq
    cases F <;> simp only [Form.runX, normalizationFormDX, normalizationFormCX, normalizationFormKDX,
      normalizationFormKCX] <;> simp only [Form.map] at ho hlen hb <;> rw [ho] <;>
      simp only [Res.bind_ok, Form.result, Form.post, Form.map, id, Res.pure_eq, hlen]
    · congr 1
    · generalize hw : sort canonicalCombiningOrder _ = w at hlen
      exact composed_tailX append w _ hlen hb out _
    · congr 1
    · generalize hw : sort canonicalCombiningOrder _ = w at hlen
      exact composed_tailX append w _ hlen hb out _

/-- The graphemes with the index of their first codepoint. -/
def withPos : Nat → List (List Int) → List (Nat × List Int)
  | _, [] => []
  | i, g :: gs => (i, g) :: withPos (i + g.length) gs

theorem segPos_withPos (pos : Nat → Nat) (i : Nat) (gs : List (List Int)) :
    segPos pos i gs = (withPos i gs).map (fun x => ⟨pos x.1, pos (x.1 + x.2.length)⟩) := by
  induction gs generalizing i with
  | nil => rfl
  | cons g gs ih => rw [segPos, withPos, List.map_cons, ih]

theorem withPos_snd (i : Nat) (gs : List (List Int)) : (withPos i gs).map (·.2) = gs := by
  induction gs generalizing i with
  | nil => rfl
  | cons g gs ih => rw [withPos, List.map_cons, ih]

theorem withPos_mem {cs : List Int} {gs : List (List Int)} {i : Nat} (hcs : cs.drop i = gs.flatten) (hi : i ≤ cs.length)
    {x : Nat × List Int} (hx : x ∈ withPos i gs) :
    x.2 ∈ gs ∧ (cs.drop x.1).take x.2.length = x.2 ∧ x.1 + x.2.length ≤ cs.length := by
  induction gs generalizing i with
  | nil => simp [withPos] at hx
  | cons g gs ih =>
    have hlen := congrArg List.length hcs
    rw [List.length_drop, List.flatten_cons, List.length_append] at hlen
    rw [withPos, List.mem_cons] at hx
    rcases hx with rfl | hx
    · refine ⟨by simp, ?_, ?_⟩
      · show (cs.drop i).take g.length = g
        rw [hcs]; simp
      · show i + g.length ≤ cs.length
        omega
    · have := ih (i := i + g.length) (by rw [← List.drop_drop, hcs]; simp) (by omega) hx
      exact ⟨by simp [this.1], this.2⟩

theorem total_map (f : ι → α) (cost : α → Nat) (xs : List ι) : total (fun x => cost (f x)) xs = total cost (xs.map f) := by
  simp [total, List.map_map, Function.comp_def]

/-- A text in a form, when the `k+1`st allocation fails: what has been written. -/
theorem Form.textX_sim (F : Form) {α : Type} (S : Sim I pos cs) (fuel : Nat) (hf : cs.length < fuel)
    (z : Int) (hz : I.deref (pos cs.length) = .ok (z, pos cs.length))
    (hzb : ∀ a, cs.getLast? = some a → isGraphemeBoundary a z = true)
    {sort : SortFn} (hs : ConformingSort sort) (append : AppendXFn (List α)) (enc : List Int → List α)
    (acost : List Int → Nat) (part : List Int → Nat → List α)
    (happ : ∀ g ∈ graphemes cs, ∀ o k, append o (F.result sort g) k =
      .ok (costed (acost g) () (o ++ enc (F.result sort g)) (o ++ part g k) k))
    (hb : (decompose F.map cs).length ≤ 2147483647) (out : List α) (k : Nat) :
    (total (fun g => g.length + acost g) (graphemes cs) ≤ k →
      normalizeTextX (F.runX sort append) I fuel (pos 0) (pos cs.length) out k =
        .ok (.ret ((F.text sort cs).length : Int) (out ++ (graphemes cs).flatMap (fun g => enc (F.result sort g)))
          (k - total (fun g => g.length + acost g) (graphemes cs)))) ∧
    (k < total (fun g => g.length + acost g) (graphemes cs) →
      ∃ j, ∃ h : j < (graphemes cs).length, total (fun g => g.length + acost g) ((graphemes cs).take j) ≤ k ∧
        k < total (fun g => g.length + acost g) ((graphemes cs).take (j + 1)) ∧
        normalizeTextX (F.runX sort append) I fuel (pos 0) (pos cs.length) out k =
          .ok (.threw (out ++ ((graphemes cs).take j).flatMap (fun g => enc (F.result sort g)) ++
            if k - total (fun g => g.length + acost g) ((graphemes cs).take j) < (graphemes cs)[j].length then []
            else part (graphemes cs)[j] (k - total (fun g => g.length + acost g) ((graphemes cs).take j) -
              (graphemes cs)[j].length)))) := by
  have hle := F.text_length_le hs cs
  have ht := traverses_graphemes S fuel hf 0 (Nat.zero_le _)
  simp only [List.drop_zero, Nat.zero_add] at ht
  have hrun : normalizeTextX (F.runX sort append) I fuel (pos 0) (pos cs.length) out k =
      foldMX (F.runX sort append I fuel) (segPos pos 0 (graphemes cs)) 0 out k := by
    simp only [normalizeTextX, filterGraphemesX, graphemeBegin_sim S fuel hf, graphemeEnd_sim S fuel hf z hz hzb, Res.bind_ok]
    refine filterLoopX_eq _ _ ht fuel ?_ out 0 k
    rw [segPos_length]
    have := segments_length_le cs
    omega
  have hflat : cs.drop 0 = (graphemes cs).flatten := by
    show cs = _
    exact (segments_flatten _ cs).symm
  have hsum : ((withPos 0 (graphemes cs)).map (fun x => ((F.result sort x.2).length : Int))).sum =
      ((F.text sort cs).length : Int) := by
    rw [Form.text, ← sum_lengths]
    conv => rhs; rw [← withPos_snd 0 (graphemes cs), List.map_map]
    rfl
  have key := foldMX_costed (fun x : Nat × List Int => (⟨pos x.1, pos (x.1 + x.2.length)⟩ : Grapheme))
    (F.runX sort append I fuel) (fun x => x.2.length + acost x.2) (fun x => ((F.result sort x.2).length : Int))
    (fun x o => o ++ enc (F.result sort x.2))
    (fun x o k => o ++ if k < x.2.length then [] else part x.2 (k - x.2.length))
    (withPos 0 (graphemes cs)) (by
      intro x hx o k
      obtain ⟨m1, m2, m3⟩ := withPos_mem hflat (Nat.zero_le _) hx
      have hgl : (decompose F.map x.2).length ≤ (decompose F.map cs).length := by
        rw [decompose, decompose, ← flatMap_flatMap_segments isGraphemeBoundary _ cs]
        exact mem_flatMap_length (f := fun g => g.flatMap (full F.map)) m1
      show F.runX sort append I fuel ⟨pos x.1, pos (x.1 + x.2.length)⟩ o k = _
      rw [F.runX_sim S fuel hf hs append x.1 x.2 m2 m3 (by omega) o k]
      by_cases hk : k < x.2.length
      · rw [if_pos hk, costed, if_neg (by omega), if_pos hk, List.append_nil]
      · rw [if_neg hk, happ x.2 m1, costed, costed]
        by_cases hk2 : acost x.2 ≤ k - x.2.length
        · rw [if_pos hk2, if_pos (by omega)]
          simp only [Res.bind_ok]
          congr 2; omega
        · rw [if_neg hk2, if_neg (by omega), if_neg hk]
          rfl)
    (fun x _ => by omega) 0 (by omega) out (by rw [hsum]; omega) k
  rw [hsum, ← segPos_withPos, Int.zero_add, total_map (fun x : Nat × List Int => x.2) (fun g => g.length + acost g),
    withPos_snd] at key
  rw [hrun]
  constructor
  · intro hk
    rw [key.1 hk, foldl_append_flatMap]
    congr 3
    conv => rhs; rw [← withPos_snd 0 (graphemes cs)]
    rw [List.flatMap_map]
  · intro hk
    obtain ⟨j, hj, h1, h2, h3⟩ := key.2 hk
    have hlen : (withPos 0 (graphemes cs)).length = (graphemes cs).length := by
      conv => rhs; rw [← withPos_snd 0 (graphemes cs)]
      rw [List.length_map]
    have hget : ((withPos 0 (graphemes cs))[j]).2 = (graphemes cs)[j]'(by omega) := by
      have : ((withPos 0 (graphemes cs)).map (·.2))[j]'(by rw [List.length_map]; exact hj) = (graphemes cs)[j]'(by omega) := by
        congr 1; exact withPos_snd 0 _
      rw [← this, List.getElem_map]
    rw [total_map (fun x : Nat × List Int => x.2) (fun g => g.length + acost g), List.map_take, withPos_snd] at h1
    rw [total_map (fun x : Nat × List Int => x.2) (fun g => g.length + acost g), List.map_take, withPos_snd] at h2
    rw [total_map (fun x : Nat × List Int => x.2) (fun g => g.length + acost g), List.map_take, withPos_snd,
      foldl_append_flatMap, hget] at h3
    refine ⟨j, by omega, h1, h2, ?_⟩
    rw [h3]
    congr 4
    conv => rhs; rw [← withPos_snd 0 (graphemes cs)]
    rw [← List.map_take, List.flatMap_map]

/-- The same when what a failing append leaves is a beginning of what it was to append. -/
theorem Form.textX_prefix (F : Form) {α : Type} (S : Sim I pos cs) (fuel : Nat) (hf : cs.length < fuel)
    (z : Int) (hz : I.deref (pos cs.length) = .ok (z, pos cs.length))
    (hzb : ∀ a, cs.getLast? = some a → isGraphemeBoundary a z = true)
    {sort : SortFn} (hs : ConformingSort sort) (append : AppendXFn (List α)) (enc : List Int → List α)
    (henc : ∀ a b, enc (a ++ b) = enc a ++ enc b) (hnil : enc [] = [])
    (acost : List Int → Nat) (pm : List Int → Nat → Nat)
    (happ : ∀ g ∈ graphemes cs, ∀ o k, append o (F.result sort g) k =
      .ok (costed (acost g) () (o ++ enc (F.result sort g)) (o ++ enc ((F.result sort g).take (pm g k))) k))
    (hb : (decompose F.map cs).length ≤ 2147483647) (out : List α) (k : Nat) :
    (total (fun g => g.length + acost g) (graphemes cs) ≤ k →
      normalizeTextX (F.runX sort append) I fuel (pos 0) (pos cs.length) out k =
        .ok (.ret ((F.text sort cs).length : Int) (out ++ enc (F.text sort cs))
          (k - total (fun g => g.length + acost g) (graphemes cs)))) ∧
    (k < total (fun g => g.length + acost g) (graphemes cs) →
      ∃ j, ∃ h : j < (graphemes cs).length, total (fun g => g.length + acost g) ((graphemes cs).take j) ≤ k ∧
        k < total (fun g => g.length + acost g) ((graphemes cs).take (j + 1)) ∧
        ∃ m, m = min (F.result sort (graphemes cs)[j]).length
            (if k - total (fun g => g.length + acost g) ((graphemes cs).take j) < (graphemes cs)[j].length then 0
            else pm (graphemes cs)[j] (k - total (fun g => g.length + acost g) ((graphemes cs).take j) -
              (graphemes cs)[j].length)) ∧
        normalizeTextX (F.runX sort append) I fuel (pos 0) (pos cs.length) out k =
          .ok (.threw (out ++ enc ((F.text sort cs).take
            ((((graphemes cs).take j).flatMap (F.result sort)).length + m))))) := by
  have hmap : ∀ gs : List (List Int), gs.flatMap (fun g => enc (F.result sort g)) = enc (gs.flatMap (F.result sort)) := by
    intro gs
    induction gs with
    | nil => simp [hnil]
    | cons g gs ih => rw [List.flatMap_cons, List.flatMap_cons, henc, ih]
  obtain ⟨h1, h2⟩ := F.textX_sim S fuel hf z hz hzb hs append enc acost
    (fun g k => enc ((F.result sort g).take (pm g k))) happ hb out k
  rw [hmap] at h1
  refine ⟨h1, fun hk => ?_⟩
  obtain ⟨j, hj, a1, a2, a3⟩ := h2 hk
  refine ⟨j, hj, a1, a2, _, rfl, ?_⟩
  rw [a3, hmap]
  generalize total (fun g => g.length + acost g) ((graphemes cs).take j) = t at *
  have hspl : graphemes cs = (graphemes cs).take j ++ (graphemes cs)[j] :: (graphemes cs).drop (j + 1) := by
    conv => lhs; rw [← List.take_append_drop j (graphemes cs)]
    rw [List.drop_eq_getElem_cons hj]
  have hsplt : F.text sort cs = ((graphemes cs).take j).flatMap (F.result sort) ++
      (F.result sort (graphemes cs)[j] ++ ((graphemes cs).drop (j + 1)).flatMap (F.result sort)) := by
    rw [Form.text]
    conv => lhs; rw [hspl]
    rw [List.flatMap_append, List.flatMap_cons]
  rw [hsplt]
  generalize (graphemes cs)[j] = G
  generalize ((graphemes cs).take j).flatMap (F.result sort) = A
  rw [List.take_append, List.take_of_length_le (l := A) (by omega), henc, List.append_assoc, Nat.add_sub_cancel_left,
    List.take_append_of_le_length (by omega)]
  congr 4
  by_cases hlt : k - t < G.length
  · rw [if_pos hlt, if_pos hlt, Nat.min_zero, List.take_zero, hnil]
  · rw [if_neg hlt, if_neg hlt]
    congr 1
    rw [Nat.min_comm]
    exact List.take_eq_take_min

end U5e
