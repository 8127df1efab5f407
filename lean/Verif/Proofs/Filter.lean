import Verif.Model.Filter
/-! `filter` over any input iterator that traverses a list. -/
namespace U5e

/-- Iterating from `s` to `t` yields exactly the elements `xs`. -/
inductive Traverses (it : InputIter σ α) : σ → σ → List α → Prop
  | done {s t} : it.ne s t = .ok false → Traverses it s t []
  | step {s s' s'' t x xs} : it.ne s t = .ok true → it.deref s = .ok (x, s') →
      it.inc s' = .ok s'' → Traverses it s'' t xs → Traverses it s t (x :: xs)

/-- One step of accumulation: apply, thread the output, add the result to the counter. -/
def accum (op : α → β → Res (Int × β)) (st : Int × β) (x : α) : Res (Int × β) := do
  let r ← op x st.2
  let k ← addInt st.1 r.1
  pure (k, r.2)

theorem filterLoop_eq (it : InputIter σ α) (op : α → β → Res (Int × β)) {s t : σ} {xs : List α}
    (h : Traverses it s t xs) (fuel : Nat) (hf : xs.length < fuel) (out : β) (k : Int) :
    filterLoop it op t fuel s out k = xs.foldlM (accum op) (k, out) := by
  induction h generalizing fuel out k with
  | done hne =>
    cases fuel with
    | zero => simp at hf
    | succ f => simp [filterLoop, hne]
  | step hne hd hi _ ih =>
    cases fuel with
    | zero => simp at hf
    | succ f =>
      simp only [filterLoop, hne, hd, hi, Res.bind_ok, if_true, List.foldlM_cons, accum]
      cases hop : op _ out with
      | ub => simp
      | tmo => simp
      | ok r =>
        simp only [Res.bind_ok]
        cases ha : addInt k r.1 with
        | ub => simp
        | tmo => simp
        | ok k' =>
          simp only [Res.bind_ok, Res.pure_eq]
          exact ih f (by simpa using hf) r.2 k'

theorem filter_eq (it : InputIter σ α) (op : α → β → Res (Int × β)) {s t : σ} {xs : List α}
    (h : Traverses it s t xs) (fuel : Nat) (hf : xs.length < fuel) (out : β) :
    filter it fuel s t out op = xs.foldlM (accum op) (0, out) := filterLoop_eq it op h fuel hf out 0

theorem addInt_ok {a b : Int} (h1 : -2147483648 ≤ a + b) (h2 : a + b ≤ 2147483647) :
    addInt a b = .ok (a + b) := by simp [addInt, h1, h2]

/-- Operations that always succeed: sum and threaded output, when no partial sum overflows. -/
theorem foldlM_accum (cnt : α → Int) (nxt : α → β → β) (op : α → β → Res (Int × β)) (xs : List α)
    (hop : ∀ x ∈ xs, ∀ o, op x o = .ok (cnt x, nxt x o)) (k : Int) (out : β)
    (hb : ∀ n, n ≤ xs.length → -2147483648 ≤ k + ((xs.take n).map cnt).sum ∧
      k + ((xs.take n).map cnt).sum ≤ 2147483647) :
    xs.foldlM (accum op) (k, out) =
      .ok (k + (xs.map cnt).sum, xs.foldl (fun o x => nxt x o) out) := by
  induction xs generalizing k out with
  | nil => simp
  | cons x xs ih =>
    have h1 := hb 1 (by simp)
    simp at h1
    simp only [List.foldlM_cons, accum, hop x (by simp) out, Res.bind_ok, addInt_ok h1.1 h1.2,
      Res.pure_eq]
    rw [ih (fun y hy => hop y (by simp [hy]))]
    · simp [Int.add_assoc]
    · intro n hn
      have := hb (n + 1) (by simpa using hn)
      simpa [Int.add_assoc] using this

/-- The same, only requiring the operation to succeed on the outputs actually reached. -/
theorem foldlM_accum_inv (P : β → Prop) (cnt : α → Int) (nxt : α → β → β)
    (op : α → β → Res (Int × β)) (xs : List α)
    (hop : ∀ x ∈ xs, ∀ o, P o → op x o = .ok (cnt x, nxt x o) ∧ P (nxt x o))
    (hcnt : ∀ x ∈ xs, 0 ≤ cnt x) (k : Int) (out : β) (hP : P out) (hk : 0 ≤ k)
    (hb : k + (xs.map cnt).sum ≤ 2147483647) :
    xs.foldlM (accum op) (k, out) =
      .ok (k + (xs.map cnt).sum, xs.foldl (fun o x => nxt x o) out) := by
  induction xs generalizing k out with
  | nil => simp
  | cons x xs ih =>
    have hc := hcnt x (by simp)
    have hs : 0 ≤ (xs.map cnt).sum := by
      have : ∀ l : List α, (∀ x ∈ l, 0 ≤ cnt x) → 0 ≤ (l.map cnt).sum := by
        intro l
        induction l with
        | nil => simp
        | cons y l ih2 =>
          intro h
          have := h y (by simp)
          have := ih2 (fun z hz => h z (by simp [hz]))
          simp; omega
      exact this xs (fun y hy => hcnt y (by simp [hy]))
    simp only [List.map_cons, List.sum_cons] at hb
    obtain ⟨h1, h2⟩ := hop x (by simp) out hP
    simp only [List.foldlM_cons, accum, h1, Res.bind_ok,
      addInt_ok (a := k) (b := cnt x) (by omega) (by omega), Res.pure_eq]
    rw [ih (fun y hy => hop y (by simp [hy])) (fun y hy => hcnt y (by simp [hy])) _ _ h2
      (by omega) (by omega)]
    simp [Int.add_assoc]

/-- Operations that always succeed, when some partial sum overflows. -/
theorem foldlM_accum_overflow (cnt : α → Int) (nxt : α → β → β) (op : α → β → Res (Int × β))
    (xs : List α) (hop : ∀ x ∈ xs, ∀ o, op x o = .ok (cnt x, nxt x o)) (k : Int) (out : β)
    (hk : -2147483648 ≤ k ∧ k ≤ 2147483647)
    (hb : ∃ n, n ≤ xs.length ∧ ¬ (-2147483648 ≤ k + ((xs.take n).map cnt).sum ∧
      k + ((xs.take n).map cnt).sum ≤ 2147483647)) :
    xs.foldlM (accum op) (k, out) = .ub := by
  induction xs generalizing k out with
  | nil =>
    obtain ⟨n, _, h⟩ := hb
    simp at h; omega
  | cons x xs ih =>
    obtain ⟨n, hn, h⟩ := hb
    simp only [List.foldlM_cons, accum, hop x (by simp) out, Res.bind_ok]
    by_cases hx : -2147483648 ≤ k + cnt x ∧ k + cnt x ≤ 2147483647
    · rw [addInt_ok hx.1 hx.2]
      simp only [Res.bind_ok, Res.pure_eq]
      cases n with
      | zero => simp at h; omega
      | succ n =>
        refine ih (fun y hy => hop y (by simp [hy])) _ _ hx ⟨n, by simpa using hn, ?_⟩
        simpa [Int.add_assoc] using h
    · simp only [addInt, hx, if_false, Res.bind_ub]

end U5e
