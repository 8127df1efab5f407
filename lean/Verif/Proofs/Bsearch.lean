import Verif.Model.Props
/-! Correctness of `bsearch` on tables ordered by the comparison function. -/
namespace U5e

/-- The table is ordered for this key: lt's after gt's, and at most one match. -/
structure Ordered (cmp : α → Ordering) (t : List α) : Prop where
  lt_up : ∀ (i j : Nat) (x y : α), i < j → t[i]? = some x → t[j]? = some y → cmp x ≠ .gt → cmp y = .lt

theorem Ordered.gt_down {cmp : α → Ordering} {t : List α} (h : Ordered cmp t) (i j : Nat) (x y : α)
    (hij : i < j) (hx : t[i]? = some x) (hy : t[j]? = some y) (hc : cmp y ≠ .lt) : cmp x = .gt := by
  cases hcx : cmp x with
  | gt => rfl
  | lt => exact absurd (h.lt_up i j x y hij hx hy (by simp [hcx])) hc
  | eq => exact absurd (h.lt_up i j x y hij hx hy (by simp [hcx])) hc

theorem bsearchLoop_some {cmp : α → Ordering} {t : List α} (fuel l u : Nat) (x : α)
    (h : bsearchLoop cmp t fuel l u = .ok (some x)) : x ∈ t ∧ cmp x = .eq := by
  induction fuel generalizing l u with
  | zero => simp [bsearchLoop] at h
  | succ n ih =>
    unfold bsearchLoop at h
    split at h
    · dsimp only at h
      split at h
      · simp at h
      · next y hy =>
        split at h
        · exact ih _ _ h
        · exact ih _ _ h
        · next hc =>
          obtain rfl := Option.some.inj (Res.ok.inj h); exact ⟨List.mem_of_getElem? hy, hc⟩
    · simp at h

theorem bsearchLoop_ok (cmp : α → Ordering) (t : List α) (fuel l u : Nat) (hu : u ≤ t.length)
    (hf : u - l < fuel) : ∃ r, bsearchLoop cmp t fuel l u = .ok r := by
  induction fuel generalizing l u with
  | zero => omega
  | succ n ih =>
    unfold bsearchLoop
    split
    · next hlu =>
      have hi : (l + u) / 2 < t.length := by omega
      simp only [List.getElem?_eq_getElem hi]
      split
      · exact ih l _ (by omega) (by omega)
      · exact ih _ u hu (by omega)
      · exact ⟨_, rfl⟩
    · exact ⟨_, rfl⟩

theorem bsearchRes_ok (cmp : α → Ordering) (t : List α) : ∃ r, bsearchRes cmp t = .ok r :=
  bsearchLoop_ok cmp t _ _ _ (Nat.le_refl _) (by omega)

theorem bsearch_eq_some {cmp : α → Ordering} {t : List α} {x : α} :
    bsearch cmp t = some x ↔ bsearchRes cmp t = .ok (some x) := by
  obtain ⟨r, hr⟩ := bsearchRes_ok cmp t
  simp [bsearch, hr]

theorem bsearchLoop_finds {cmp : α → Ordering} {t : List α} (ho : Ordered cmp t) (k : Nat) (x : α)
    (hk : t[k]? = some x) (hx : cmp x = .eq) (fuel l u : Nat) (hl : l ≤ k) (hku : k < u)
    (hu : u ≤ t.length) (hf : u - l < fuel) : bsearchLoop cmp t fuel l u = .ok (some x) := by
  induction fuel generalizing l u with
  | zero => omega
  | succ n ih =>
    have hi : (l + u) / 2 < t.length := by omega
    have hg : t[(l + u) / 2]? = some t[(l + u) / 2] := List.getElem?_eq_getElem hi
    unfold bsearchLoop
    rw [if_pos (by omega)]
    simp only [hg]
    rcases Nat.lt_trichotomy k ((l + u) / 2) with h | h | h
    · have := ho.lt_up k _ x _ h hk hg (by simp [hx])
      simp only [this]
      exact ih l _ hl h (by omega) (by omega)
    · have hxx : t[(l + u) / 2] = x := by
        rw [h] at hk; exact Option.some.inj (hg.symm.trans hk)
      simp only [hxx, hx]
    · have := ho.gt_down _ k _ x h hg hk (by simp [hx])
      simp only [this]
      exact ih _ u (by omega) hku hu (by omega)

theorem bsearch_some {cmp : α → Ordering} {t : List α} {x : α} (h : bsearch cmp t = some x) :
    x ∈ t ∧ cmp x = .eq := bsearchLoop_some _ _ _ x (bsearch_eq_some.mp h)

theorem bsearch_finds {cmp : α → Ordering} {t : List α} (ho : Ordered cmp t) (x : α) (hm : x ∈ t)
    (hx : cmp x = .eq) : bsearch cmp t = some x := by
  obtain ⟨k, hk⟩ := List.getElem?_of_mem hm
  have := (List.getElem?_eq_some_iff.mp hk).1
  refine bsearch_eq_some.mpr ?_
  exact bsearchLoop_finds ho k x hk hx _ 0 t.length (by omega) this (Nat.le_refl _) (by omega)

theorem bsearch_none {cmp : α → Ordering} {t : List α} (h : ∀ x ∈ t, cmp x ≠ .eq) :
    bsearch cmp t = none := by
  cases hb : bsearch cmp t with
  | none => rfl
  | some x => exact absurd (bsearch_some hb).2 (h x (bsearch_some hb).1)

end U5e
