import Verif.Model.Normalize
import Verif.Proofs.NormFacts
import Verif.Properties.GraphemeAt
/-! The normalization functions as functions on lists. -/
namespace U5e
open Spec Data

set_option maxRecDepth 100000 in
theorem dec_row_len : decTable.all (fun r => Nat.ble r.length 20) = true := by decide +kernel
set_option maxRecDepth 100000 in
theorem kdec_row_len : kdecTable.all (fun r => Nat.ble r.length 20) = true := by decide +kernel

/-- A mapping list is its non-zero prefix and a final zero; it is short. -/
structure GoodMap (map : Int → Option (List Int)) : Prop where
  shape : ∀ c m, map c = some m → m = full map c ++ [0]
  len : ∀ c, (full map c).length ≤ 20
  nz : ∀ c m, map c = some m → ∀ x ∈ full map c, x ≠ 0

theorem takeWhile_shape {l : List Int} (h1 : l.getLast? = some 0) (h2 : 0 ∉ l.dropLast) :
    l = l.takeWhile (· != 0) ++ [0] := by
  rcases List.eq_nil_or_concat l with rfl | ⟨l', x, rfl⟩
  · simp at h1
  · rw [List.concat_eq_append] at *
    simp at h1 h2
    subst h1
    have : l'.takeWhile (· != 0) = l' := by
      induction l' with
      | nil => rfl
      | cons y l' ih =>
        have hy : y ≠ 0 := by intro h; subst h; exact h2 (by simp)
        rw [List.takeWhile_cons_of_pos (by simpa using hy), ih (fun h => h2 (by simp [h]))]
    rw [List.takeWhile_append, this]; simp

theorem good_of_table {map : Int → Option (List Int)} {t : List (List Nat)}
    (hiff : ∀ c m, map c = some m → ∃ (k : Nat) (l : List Nat), c = k ∧ m = l.map Int.ofNat ∧ k :: l ∈ t)
    (hshape : ∀ row ∈ t, 3 ≤ row.length ∧ row.getLast? = some 0 ∧ 0 ∉ row.dropLast)
    (hlen : t.all (fun r => Nat.ble r.length 20) = true) : GoodMap map := by
  have key : ∀ c m, map c = some m → m = m.takeWhile (· != 0) ++ [0] ∧ m.length ≤ 19 := by
    intro c m hm
    obtain ⟨k, l, rfl, rfl, hmem⟩ := hiff c m hm
    have hs := hshape _ hmem
    have hl := List.all_eq_true.mp hlen _ hmem
    simp only [Nat.ble_eq, List.length_cons] at hl
    refine ⟨takeWhile_shape ?_ ?_, by rw [List.length_map]; omega⟩
    · rw [List.getLast?_map]
      have := hs.2.1
      cases l with
      | nil => simp at hs
      | cons a l => rw [List.getLast?_cons_cons] at this; rw [this]; rfl
    · rw [← List.map_dropLast]
      intro h0
      obtain ⟨y, hy, he⟩ := List.mem_map.mp h0
      have : y = 0 := by have : (y : Int) = 0 := he; omega
      subst this
      apply hs.2.2
      cases l with
      | nil => simp at hs
      | cons a l => rw [List.dropLast_cons_of_ne_nil (by simp)]; exact List.mem_cons_of_mem _ hy
  constructor
  · intro c m hm; rw [full, hm]; exact (key c m hm).1
  · intro c
    cases hm : map c with
    | none => rw [full, hm]; simp
    | some m =>
      have h1 := key c m hm
      rw [full, hm]
      have := congrArg List.length h1.1
      simp only [List.length_append, List.length_cons, List.length_nil] at this
      simp only; omega
  · intro c m hm x hx
    rw [full, hm] at hx
    have := List.all_takeWhile (p := (· != 0)) (l := m)
    have := List.all_eq_true.mp this x hx
    simpa using this

theorem goodD : GoodMap decResolve :=
  good_of_table (fun c m h => (C27_dec_iff c m).mp h) C27_row_shapes.2.2.1 dec_row_len
theorem goodK : GoodMap kdecResolve :=
  good_of_table (fun c m h => (C27_kdec_iff c m).mp h) C27_row_shapes.2.2.2.1 kdec_row_len

theorem mappingCount_eq (l rest : List Int) (hl : ∀ x ∈ l, x ≠ 0) (k : Int) (hk : 0 ≤ k)
    (hb : k + l.length ≤ 2147483647) : mappingCount (l ++ 0 :: rest) k = .ok (k + l.length) := by
  induction l generalizing k with
  | nil => simp [mappingCount]
  | cons x l ih =>
    simp only [List.length_cons] at hb
    rw [List.cons_append, mappingCount, if_pos (hl x (by simp)), addInt_ok (by omega) (by omega),
      Res.bind_ok, ih (fun y hy => hl y (by simp [hy])) (k + 1) (by omega) (by omega)]
    simp only [List.length_cons]; congr 1; omega

theorem codepointDecomposition_eq {map} (G : GoodMap map) (c : Int) (out : List Int) :
    codepointDecomposition map c out = .ok (((full map c).length : Int), out ++ full map c) := by
  have hlen := G.len c
  cases hm : map c with
  | none => simp [codepointDecomposition, full, hm, appendRange32]
  | some m =>
    have hs := G.shape c m hm
    have hc : mappingCount m 0 = .ok ((full map c).length : Int) := by
      conv => lhs; arg 1; rw [hs]
      rw [mappingCount_eq _ _ (G.nz c m hm) 0 (by omega) (by omega)]
      simp
    simp only [codepointDecomposition, hm, hc, Res.bind_ok, Int.toNat_natCast, appendRange32]
    rw [if_pos ⟨Nat.zero_le _, by rw [hs]; simp⟩]
    simp only [Res.bind_ok, Res.pure_eq, List.drop_zero]
    congr 3
    conv => lhs; rw [hs]
    simp

theorem foldl_append_flatMap {f : α → List β} (xs : List α) (out : List β) :
    xs.foldl (fun o x => o ++ f x) out = out ++ xs.flatMap f := by
  induction xs generalizing out with
  | nil => simp
  | cons x xs ih => simp [ih]

theorem sum_length_decompose (map) (cs : List Int) :
    (cs.map (fun x => ((full map x).length : Int))).sum = (decompose map cs).length := by
  induction cs with
  | nil => rfl
  | cons c cs ih =>
    rw [decompose_cons, List.length_append, List.map_cons, List.sum_cons, ih]; simp

/-- Decomposition of a range of codepoints by `filter`. -/
theorem filter_decompose {map} (G : GoodMap map) {it : InputIter σ Int} {s t : σ} {cs : List Int}
    (h : Traverses it s t cs) (fuel : Nat) (hf : cs.length < fuel) (out : List Int)
    (hb : (decompose map cs).length ≤ 2147483647) :
    filter it fuel s t out (codepointDecomposition map) =
      .ok ((decompose map cs).length, out ++ decompose map cs) := by
  rw [filter_eq it _ h fuel hf]
  have := foldlM_accum_inv (fun _ => True) (fun x => ((full map x).length : Int))
    (fun x o => o ++ full map x) (codepointDecomposition map) cs
    (fun x _ o _ => ⟨codepointDecomposition_eq G x o, trivial⟩) (fun x _ => by omega) 0 out trivial
    (by omega) (by rw [sum_length_decompose]; omega)
  rw [this, sum_length_decompose, foldl_append_flatMap, Int.zero_add]; rfl

/-- Goals about lengths of concatenations. -/
macro "lomega" : tactic =>
  `(tactic| first
    | omega
    | (simp only [List.length_append, List.length_cons, List.length_nil, List.length_set]; done)
    | (simp only [List.length_append, List.length_cons, List.length_nil, List.length_set]; omega))

/-! ### Composition in place -/

theorem rd32_append (p : List Int) (a : Int) (l : List Int) : rd32 (p ++ a :: l) p.length = .ok a := by
  simp [rd32]

theorem wr32_ok {m : List Int} {p : Nat} (h : p < m.length) (v : Int) : wr32 m p v = .ok (m.set p v) := by
  rw [wr32, if_pos h]

theorem composeFrom_length (comp) (a : Int) (l : List Int) :
    (composeFrom comp a l).length ≤ l.length + 1 := by
  induction l generalizing a with
  | nil => simp [composeFrom]
  | cons b l ih =>
    rw [composeFrom]
    split
    · have := ih ‹_›; simp only [List.length_cons]; omega
    · have := ih b; simp only [List.length_cons]; omega

theorem composeFrom_length_pos (comp) (a : Int) (l : List Int) :
    1 ≤ (composeFrom comp a l).length := by
  induction l generalizing a with
  | nil => simp [composeFrom]
  | cons b l ih =>
    rw [composeFrom]
    split
    · exact ih _
    · simp

/-- Loop invariant: the buffer is `done ++ junk ++ a :: rest` with `oi` after `done` and `in` at `a`. -/
theorem compositionLoop_eq (fuel : Nat) (done junk : List Int) (a : Int) (rest : List Int) (count : Int)
    (hf : rest.length + 1 < fuel) (hc : 0 ≤ count) (hcb : count + rest.length ≤ 2147483647) :
    ∃ data, compositionLoop fuel (done ++ junk ++ a :: rest) done.length (done.length + junk.length) count =
      .ok (data, done.length + (composeFrom compResolve a rest).length,
        count + (rest.length + 1 - (composeFrom compResolve a rest).length : Int)) ∧
      data.take (done.length + (composeFrom compResolve a rest).length) =
        done ++ composeFrom compResolve a rest ∧
      data.length = done.length + junk.length + rest.length + 1 := by
  induction rest generalizing fuel done junk a count with
  | nil =>
    match fuel, hf with
    | f + 1 + 1, _ =>
      have hw : wr32 (done ++ junk ++ [a]) done.length a = .ok ((done ++ junk ++ [a]).set done.length a) :=
        wr32_ok (by lomega) a
      have hr : rd32 (done ++ junk ++ [a]) (done.length + junk.length) = .ok a := by
        have := rd32_append (done ++ junk) a []
        rwa [List.length_append] at this
      refine ⟨(done ++ junk ++ [a]).set done.length a, ?_, ?_, ?_⟩
      · rw [compositionLoop, if_neg (by lomega), hr, Res.bind_ok, if_pos (by lomega), hw, Res.bind_ok,
          compositionLoop, if_pos (by lomega)]
        simp [composeFrom]
      · rw [composeFrom]
        have : done ++ junk ++ [a] = done ++ (junk ++ [a]) := by simp
        rw [this, List.set_append_right _ _ (by omega), Nat.sub_self]
        rw [List.take_length_add_append]
        cases junk <;> simp
      · lomega
  | cons b rest ih =>
    match fuel, hf with
    | f + 1, hf =>
      simp only [List.length_cons] at hf hcb
      have hr : rd32 (done ++ junk ++ a :: b :: rest) (done.length + junk.length) = .ok a := by
        have := rd32_append (done ++ junk) a (b :: rest)
        rwa [List.length_append] at this
      have hr2 : rd32 (done ++ junk ++ a :: b :: rest) (done.length + junk.length + 1) = .ok b := by
        have := rd32_append (done ++ junk ++ [a]) b rest
        rw [show (done ++ junk ++ [a]).length = done.length + junk.length + 1 by lomega,
          show done ++ junk ++ [a] ++ b :: rest = done ++ junk ++ a :: b :: rest by simp] at this
        exact this
      cases hcomp : compResolve a b with
      | some c =>
        have hw : wr32 (done ++ junk ++ a :: b :: rest) (done.length + junk.length + 1) c =
            .ok (done ++ (junk ++ [a]) ++ c :: rest) := by
          rw [wr32_ok (by lomega)]
          congr 1
          rw [show done ++ junk ++ a :: b :: rest = (done ++ junk ++ [a]) ++ b :: rest by simp,
            List.set_append_right _ _ (by lomega), show done.length + junk.length + 1 -
              (done ++ junk ++ [a]).length = 0 by lomega]
          simp
        obtain ⟨data, h1, h2, h3⟩ := ih f done (junk ++ [a]) c (count + 1) (by omega) (by omega) (by omega)
        refine ⟨data, ?_, ?_, ?_⟩
        · rw [compositionLoop, if_neg (by lomega), hr, Res.bind_ok, if_neg (by lomega), hr2, Res.bind_ok]
          simp only [hcomp, hw, Res.bind_ok]
          rw [addInt_ok (by omega) (by omega), Res.bind_ok]
          rw [show done.length + (junk ++ [a]).length = done.length + junk.length + 1 by lomega] at h1
          rw [h1, composeFrom, hcomp]
          simp only [List.length_cons]
          congr 3
          omega
        · rw [composeFrom, hcomp]; exact h2
        · rw [h3]; lomega
      | none =>
        -- write `a` at oi
        have hset : ∃ junk', (done ++ junk ++ a :: b :: rest).set done.length a =
            (done ++ [a]) ++ junk' ++ b :: rest ∧ junk'.length = junk.length := by
          cases junk with
          | nil => exact ⟨[], by simp, rfl⟩
          | cons x junk => exact ⟨junk ++ [a], by simp, by simp⟩
        obtain ⟨junk', hj, hjl⟩ := hset
        have hw : wr32 (done ++ junk ++ a :: b :: rest) done.length a =
            .ok ((done ++ [a]) ++ junk' ++ b :: rest) := by
          rw [wr32_ok (by lomega), hj]
        obtain ⟨data, h1, h2, h3⟩ := ih f (done ++ [a]) junk' b count (by omega) hc (by omega)
        refine ⟨data, ?_, ?_, ?_⟩
        · rw [compositionLoop, if_neg (by lomega), hr, Res.bind_ok, if_neg (by lomega), hr2, Res.bind_ok]
          simp only [hcomp, hw, Res.bind_ok]
          rw [show (done ++ [a]).length = done.length + 1 by simp, hjl,
            show done.length + 1 + junk.length = done.length + junk.length + 1 by omega] at h1
          rw [h1, composeFrom, hcomp]
          simp only [List.length_cons]
          congr 3
          · omega
          · omega
        · rw [composeFrom, hcomp]
          simp only [List.length_cons]
          rw [show done.length + ((composeFrom compResolve b rest).length + 1) =
            (done ++ [a]).length + (composeFrom compResolve b rest).length by lomega, h2]
          simp
        · rw [h3]; lomega

theorem canonicalComposition_eq (fuel : Nat) (data : List Int) (count : Int) (hf : data.length < fuel)
    (hc : 0 ≤ count) (hb : count + data.length ≤ 2147483647) :
    ∃ data', canonicalComposition fuel data count =
      .ok (data', (compose compResolve data).length,
        count + (data.length - (compose compResolve data).length : Int)) ∧
      data'.take (compose compResolve data).length = compose compResolve data ∧
      data'.length = data.length := by
  cases data with
  | nil =>
    match fuel, hf with
    | f + 1, _ => exact ⟨[], by simp [canonicalComposition, compositionLoop, compose], by simp [compose], rfl⟩
  | cons a rest =>
    simp only [List.length_cons] at hf hb
    cases fuel with
    | zero => omega
    | succ f =>
    by_cases h : rest.length + 1 < f + 1
    · obtain ⟨d, h1, h2, h3⟩ := compositionLoop_eq (f + 1) [] [] a rest count h hc (by omega)
      refine ⟨d, ?_, ?_, ?_⟩
      · simp only [List.length_nil, Nat.zero_add, List.nil_append] at h1
        rw [canonicalComposition, compose, List.length_cons, h1]; simp
      · simpa [compose] using h2
      · simpa using h3
    · omega

end U5e
