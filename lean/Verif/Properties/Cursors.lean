import Verif.Proofs.Cursors
/-!
# C62: programs that hold iterators

Any program with iterator variables (Model/Cursors.lean) that only uses valid iterators does, on UTF-8 strings and on
utf32ne strings, what it should do on sequences of codepoints (Spec/Cursors.lean).
-/
namespace U5e
open Spec

/-- How a running program represents the world of the specification. -/
structure Rel (rep : List Nat → List α) (w : World) (M : Machine α) : Prop where
  strings : M.strings = fun k => rep (w.strings k)
  small : Small w.strings
  it : ∀ k i x, w.its k i = some x → ∃ p, M.its k i = some (x.string, M.gen x.string, p) ∧
    Inside rep (w.strings x.string) x.index p ∧ (x.written = false → p = off rep (w.strings x.string) x.index) ∧
    (k = .const → x.written = false)
  stale : ∀ k i, w.its k i = none → ∀ s g p, M.its k i = some (s, g, p) → g < M.gen s
  git : ∀ g x, w.gits g = some x → M.gits g = some (x.string, M.gen x.string,
    ⟨0, (rep (w.strings x.string)).length, off rep (w.strings x.string) x.first, off rep (w.strings x.string) x.last⟩) ∧
    x.first ≤ x.last ∧ x.last ≤ (w.strings x.string).length ∧
    (x.first = x.last → x.first = (w.strings x.string).length)
  gstale : ∀ g, w.gits g = none → ∀ s n x, M.gits g = some (s, n, x) → n < M.gen s

variable {rep : List Nat → List α} {w : World} {M : Machine α}

theorem Rel.getIt (r : Rel rep w M) {k : Kind} {i : Nat} {x : Cursor} (h : w.its k i = some x) :
    ∃ p, M.it k i = .ok (x.string, p) ∧ Inside rep (w.strings x.string) x.index p ∧
      (x.written = false → p = off rep (w.strings x.string) x.index) ∧ (k = .const → x.written = false) := by
  obtain ⟨p, h1, h2⟩ := r.it k i x h
  exact ⟨p, by simp [Machine.it, h1], h2⟩

theorem Rel.getGit (r : Rel rep w M) {g : Nat} {x : Span} (h : w.gits g = some x) :
    M.git g = .ok (x.string, ⟨0, (rep (w.strings x.string)).length, off rep (w.strings x.string) x.first,
      off rep (w.strings x.string) x.last⟩) ∧
    x.first ≤ x.last ∧ x.last ≤ (w.strings x.string).length ∧
    (x.first = x.last → x.first = (w.strings x.string).length) := by
  obtain ⟨h1, h2⟩ := r.git g x h
  exact ⟨by simp [Machine.git, h1], h2⟩

theorem Rel.setIt (r : Rel rep w M) (k : Kind) (i : Nat) (x : Cursor) (p : Nat)
    (h1 : Inside rep (w.strings x.string) x.index p) (h2 : x.written = false → p = off rep (w.strings x.string) x.index)
    (h3 : k = .const → x.written = false) : Rel rep (w.setIt k i x) (M.setIt k i x.string p) where
  strings := r.strings
  small := r.small
  it k' i' y hy := by
    simp only [World.setIt, Machine.setIt] at hy ⊢
    by_cases hc : k' = k ∧ i' = i
    · rw [if_pos hc] at hy ⊢
      obtain rfl : x = y := by simpa using hy
      exact ⟨p, rfl, h1, h2, fun h => h3 (hc.1 ▸ h)⟩
    · rw [if_neg hc] at hy ⊢
      exact r.it k' i' y hy
  stale k' i' hn s g q hq := by
    simp only [World.setIt, Machine.setIt] at hn hq ⊢
    by_cases hc : k' = k ∧ i' = i
    · rw [if_pos hc] at hn; cases hn
    · rw [if_neg hc] at hn hq
      exact r.stale k' i' hn s g q hq
  git := r.git
  gstale := r.gstale

theorem Rel.setGit (r : Rel rep w M) (g : Nat) (x : Span) (h1 : x.first ≤ x.last)
    (h2 : x.last ≤ (w.strings x.string).length) (h3 : x.first = x.last → x.first = (w.strings x.string).length) :
    Rel rep (w.setGit g x) (M.setGit g x.string ⟨0, (rep (w.strings x.string)).length,
      off rep (w.strings x.string) x.first, off rep (w.strings x.string) x.last⟩) where
  strings := r.strings
  small := r.small
  it := r.it
  stale := r.stale
  git g' y hy := by
    simp only [World.setGit, Machine.setGit] at hy ⊢
    by_cases hc : g' = g
    · rw [if_pos hc] at hy ⊢
      obtain rfl : x = y := by simpa using hy
      exact ⟨rfl, h1, h2, h3⟩
    · rw [if_neg hc] at hy ⊢
      exact r.git g' y hy
  gstale g' hn s n y hq := by
    simp only [World.setGit, Machine.setGit] at hn hq ⊢
    by_cases hc : g' = g
    · rw [if_pos hc] at hn; cases hn
    · rw [if_neg hc] at hn hq
      exact r.gstale g' hn s n y hq

/-- Storing into string `d`. -/
theorem Rel.store (r : Rel rep w M) (d : Nat) (cs : List Nat) (hs : Small (put w.strings d cs)) :
    Rel rep (w.stored (put w.strings d cs) (some d))
      { M with strings := fun k => rep (put w.strings d cs k), gen := upd M.gen d (M.gen d + 1) } where
  strings := rfl
  small := hs
  it k i x hx := by
    simp only [World.stored, World.invalidate] at hx ⊢
    obtain ⟨hx, hd⟩ := Option.filter_eq_some_iff.mp hx
    have hd : x.string ≠ d := by simpa using hd
    obtain ⟨p, h1, h2⟩ := r.it k i x hx
    refine ⟨p, ?_, ?_⟩
    · rw [h1]; simp [upd, hd]
    · simpa [put, hd] using h2
  stale k i hn s g p hp := by
    simp only [World.stored, World.invalidate] at hn ⊢
    have hp : M.its k i = some (s, g, p) := hp
    cases hx : w.its k i with
    | none =>
      have := r.stale k i hx s g p hp
      simp only [upd]; split
      · subst_vars; omega
      · exact this
    | some x =>
      rw [hx, Option.filter_some] at hn
      have hd : x.string = d := by
        by_cases h : x.string = d
        · exact h
        · simp [h] at hn
      obtain ⟨q, h1, _⟩ := r.it k i x hx
      rw [h1] at hp
      simp only [Option.some.injEq, Prod.mk.injEq] at hp
      obtain ⟨rfl, rfl, _⟩ := hp
      simp [upd, hd]
  git g x hx := by
    simp only [World.stored, World.invalidate] at hx ⊢
    obtain ⟨hx, hd⟩ := Option.filter_eq_some_iff.mp hx
    have hd : x.string ≠ d := by simpa using hd
    obtain ⟨h1, h2⟩ := r.git g x hx
    refine ⟨?_, ?_⟩
    · rw [h1]; simp [upd, put, hd]
    · simpa [put, hd] using h2
  gstale g hn s n y hp := by
    simp only [World.stored, World.invalidate] at hn ⊢
    have hp : M.gits g = some (s, n, y) := hp
    cases hx : w.gits g with
    | none =>
      have := r.gstale g hx s n y hp
      simp only [upd]; split
      · subst_vars; omega
      · exact this
    | some x =>
      rw [hx, Option.filter_some] at hn
      have hd : x.string = d := by
        by_cases h : x.string = d
        · exact h
        · simp [h] at hn
      obtain ⟨h1, _⟩ := r.git g x hx
      rw [h1] at hp
      simp only [Option.some.injEq, Prod.mk.injEq] at hp
      obtain ⟨rfl, rfl, _⟩ := hp
      simp [upd, hd]

/-- Overwriting codepoints by codepoints of the same sizes keeps all iterators. -/
theorem Rel.overwrite (r : Rel rep w M) (σ : Nat → List Nat) (hs : Small σ)
    (hlen : ∀ k, (σ k).length = (w.strings k).length)
    (hoff : ∀ k i, off rep (σ k) i = off rep (w.strings k) i) :
    Rel rep { w with strings := σ } { M with strings := fun k => rep (σ k) } where
  strings := rfl
  small := hs
  it k i x hx := by
    obtain ⟨p, h1, h2⟩ := r.it k i x hx
    refine ⟨p, h1, ?_⟩
    simpa only [Inside, hlen, hoff] using h2
  stale := r.stale
  git g x hx := by
    obtain ⟨h1, h2⟩ := r.git g x hx
    have hl : (rep (σ x.string)).length = (rep (w.strings x.string)).length := by
      have := hoff x.string (w.strings x.string).length
      rw [off, off, List.take_length, ← hlen, List.take_length] at this
      exact this
    refine ⟨?_, ?_⟩
    · simp only [hoff, hl]; exact h1
    · simpa only [hlen] using h2
  gstale := r.gstale

theorem off_congr {E : Encoding α} (R : Refines E rep) (Mi : RefinesMid E rep) {cs ds : List Nat}
    (hlen : cs.length = ds.length)
    (h : ∀ (i : Nat) a b, cs[i]? = some a → ds[i]? = some b → (encode a).length = (encode b).length) (i : Nat) :
    off rep cs i = off rep ds i := by
  induction i with
  | zero => simp [off]
  | succ i ih =>
    cases hc : cs[i]? with
    | none =>
      have h1 : cs.length ≤ i := by simpa using hc
      rw [off, off, List.take_of_length_le (by omega), List.take_of_length_le (by omega)]
      rwa [off, off, List.take_of_length_le h1, List.take_of_length_le (by omega)] at ih
    | some a =>
      have h1 := (List.getElem?_eq_some_iff.mp hc).1
      have hd : ds[i]? = some ds[i] := List.getElem?_eq_getElem (by omega)
      rw [off, off, take_succ_of_getElem? hc, take_succ_of_getElem? hd, R.append, R.append, List.length_append,
        List.length_append, Mi.sameLen a ds[i] (h i a _ hc hd)]
      simp only [off] at ih
      omega

/-- What a statement does to the positions: it stores into one string, or it overwrites codepoints by codepoints of
the same sizes. -/
theorem ideal_stores (sort : SortFn) (σ σ1 : Nat → List Nat) (op : Op) (o : Obs)
    (ha : (libraryData sort).Allowed σ op) (h : (libraryData sort).Ideal σ op σ1 o) :
    match storesInto op with
    | some d => ∃ cs, σ1 = put σ d cs
    | none => ∀ k, (σ1 k).length = (σ k).length ∧
        ∀ (i : Nat) a b, (σ1 k)[i]? = some a → (σ k)[i]? = some b → (encode a).length = (encode b).length := by
  have refl : ∀ k, (σ k).length = (σ k).length ∧
        ∀ (i : Nat) a b, (σ k)[i]? = some a → (σ k)[i]? = some b → (encode a).length = (encode b).length := by
    intro k
    refine ⟨rfl, fun i a b h1 h2 => ?_⟩
    rw [h1] at h2; cases h2; rfl
  cases op with
  | copy d s => exact ⟨_, h.1⟩
  | clear d => exact ⟨_, h.1⟩
  | appendRange d s i j => exact ⟨_, h.1⟩
  | appendCps d v => obtain ⟨⟨cs, _, h⟩, _⟩ := h; exact ⟨_, h⟩
  | appendGraphemes d s i j => obtain ⟨⟨gs, _, h⟩, _⟩ := h; exact ⟨_, h⟩
  | normalize F d s => obtain ⟨gs, ns, _, _, h, _⟩ := h; exact ⟨_, h⟩
  | read s => obtain ⟨rfl, _⟩ := h; exact refl
  | readBack s => obtain ⟨rfl, _⟩ := h; exact refl
  | readGraphemes s => obtain ⟨rfl, _⟩ := h; exact refl
  | equal s t => obtain ⟨rfl, _⟩ := h; exact refl
  | less s t => obtain ⟨rfl, _⟩ := h; exact refl
  | countIf s p => obtain ⟨rfl, _⟩ := h; exact refl
  | write s i c =>
    obtain ⟨⟨n, hc, rfl⟩, _⟩ := h
    obtain ⟨n', old, hc', hold, _, hsz⟩ := ha
    obtain rfl : n = n' := by omega
    intro k
    by_cases hk : k = s
    · subst hk
      simp only [put, if_true]
      refine ⟨by simp, fun j a b h1 h2 => ?_⟩
      rw [List.getElem?_set] at h1
      split at h1
      · subst_vars
        split at h1
        · rw [hold] at h2; cases h2; cases h1; exact hsz
        · cases h1
      · rw [h1] at h2; cases h2; rfl
    · simpa only [put, if_neg hk] using refl k
  | transform s f =>
    obtain ⟨⟨cs, hcs, rfl⟩, _⟩ := h
    have hl : cs.length = (σ s).length := by simpa using congrArg List.length hcs
    intro k
    by_cases hk : k = s
    · subst hk
      simp only [put, if_true]
      refine ⟨hl, fun j a b h1 h2 => ?_⟩
      obtain ⟨n, hn, _, hsz⟩ := ha b (List.mem_of_getElem? h2)
      have := congrArg (·[j]?) hcs
      simp only [ints, List.getElem?_map, h1, h2, Option.map_some, Option.some.injEq, hn] at this
      have : (a : Int) = f b := this
      rw [hn] at this
      obtain rfl : a = n := by omega
      exact hsz
    · simpa only [put, if_neg hk] using refl k

theorem invalidates_eq (op : Op) : op.invalidates = storesInto op := by cases op <;> rfl

theorem firstGrapheme_eq {sort : SortFn} {cs : List Nat} {i n : Nat} (h : (libraryData sort).FirstGrapheme cs i n) :
    n = firstLen ((ints cs).drop i) := by
  obtain ⟨gs, hgs, rfl⟩ := h
  obtain ⟨gs0, _, hseg, huniq⟩ := graphemes_nat sort (cs.drop i)
  obtain rfl := huniq _ hgs
  have e : (ints cs).drop i = ints (cs.drop i) := by simp [ints]
  rw [e]
  generalize cs.drop i = l at *
  cases l with
  | nil =>
    have : gs = [] := by simpa [segments] using hseg
    subst this; rfl
  | cons c l =>
    rw [ints, List.map_cons, segments_cons'] at hseg
    cases gs with
    | nil => simp at hseg
    | cons g gs =>
      simp only [List.map_cons, List.cons.injEq] at hseg
      have := congrArg List.length hseg.1
      rw [List.length_map, List.length_take, Nat.min_eq_left (firstLen_le _)] at this
      simpa using this

theorem firstGrapheme_exists (sort : SortFn) (cs : List Nat) (i : Nat) : ∃ n, (libraryData sort).FirstGrapheme cs i n := by
  obtain ⟨gs, h, _⟩ := graphemes_nat sort (cs.drop i)
  exact ⟨_, gs, h, rfl⟩

/-- Everything the specification says a permitted statement does, and that it says something. -/
theorem does_exists (sort : SortFn) (w : World) (st : Stmt) (ha : (libraryData sort).May w st) :
    ∃ w1 o, (libraryData sort).Does w st w1 o := by
  cases st with
  | plain op => obtain ⟨σ, o, h⟩ := ideal_exists sort w.strings op ha; exact ⟨_, _, σ, h, rfl⟩
  | begin k i s => exact ⟨_, _, rfl, rfl⟩
  | «end» k i s => exact ⟨_, _, rfl, rfl⟩
  | assign k i j => obtain ⟨x, hx⟩ := ha; exact ⟨_, _, x, hx, rfl, rfl⟩
  | next k i => obtain ⟨x, hx, _⟩ := ha; exact ⟨_, _, x, hx, rfl, rfl⟩
  | prev k i => obtain ⟨x, hx, _⟩ := ha; exact ⟨_, _, x, hx, rfl, rfl⟩
  | get k i => obtain ⟨x, hx, h⟩ := ha; exact ⟨_, _, x, _, hx, List.getElem?_eq_getElem h, rfl, rfl⟩
  | same k i j => obtain ⟨x, y, hx, hy, _⟩ := ha; exact ⟨_, _, x, y, hx, hy, rfl, rfl⟩
  | set i c => obtain ⟨x, n, old, hx, hc, _⟩ := ha; exact ⟨_, _, x, n, hx, hc, rfl, rfl⟩
  | appendBetween d i j => obtain ⟨x, y, hx, hy, _⟩ := ha; exact ⟨_, _, x, y, hx, hy, rfl, rfl⟩
  | gbegin g s => obtain ⟨n, hn⟩ := firstGrapheme_exists sort (w.strings s) 0; exact ⟨_, _, n, hn, rfl, rfl⟩
  | gend g s => exact ⟨_, _, rfl, rfl⟩
  | gassign g h => obtain ⟨x, hx⟩ := ha; exact ⟨_, _, x, hx, rfl, rfl⟩
  | gnext g =>
    obtain ⟨x, hx⟩ := ha
    obtain ⟨n, hn⟩ := firstGrapheme_exists sort (w.strings x.string) x.last
    exact ⟨_, _, x, n, hx, hn, rfl, rfl⟩
  | gget g => obtain ⟨x, hx⟩ := ha; exact ⟨_, _, x, hx, rfl, rfl⟩
  | gsame g h =>
    obtain ⟨x, y, hx, hy, _⟩ := ha
    classical
    exact ⟨_, _, x, y, decide (x.Same y (w.strings x.string).length), hx, hy, by simp, rfl, rfl⟩
  | gfirst i g => obtain ⟨x, hx⟩ := ha; exact ⟨_, _, x, hx, rfl, rfl⟩
  | glast i g => obtain ⟨x, hx⟩ := ha; exact ⟨_, _, x, hx, rfl, rfl⟩

theorem inside_off {E : Encoding α} (R : Refines E rep) (Mi : RefinesMid E rep) {cs : List Nat}
    (h : ∀ c ∈ cs, c < 2 ^ 31) {i : Nat} (hi : i ≤ cs.length) : Inside rep cs i (off rep cs i) := by
  rcases Nat.lt_or_eq_of_le hi with hl | he
  · refine .inr ⟨hl, Nat.le_refl _, ?_⟩
    have hc : cs[i]? = some cs[i] := List.getElem?_eq_getElem hl
    have := Mi.pos cs[i] (h _ (List.getElem_mem hl))
    rw [off, off, take_succ_of_getElem? hc, R.append, List.length_append]
    omega
  · exact .inl ⟨he, rfl⟩

/-- One permitted statement does what the specification says. -/
theorem exec_refines [DecidableEq α] {E : Encoding α} (R : Refines E rep) (Mi : RefinesMid E rep) {sort : SortFn}
    (hs : ConformingSort sort) (r : Rel rep w M) (st : Stmt) (ha : (libraryData sort).May w st) (w1 : World) (o : Obs)
    (hd : (libraryData sort).Does w st w1 o) :
    ∃ M1 N, Rel rep w1 M1 ∧ ∀ fuel, N ≤ fuel → E.exec sort fuel M st = .ok (M1, o) := by
  have hstr : ∀ s, M.strings s = rep (w.strings s) := fun s => by rw [r.strings]
  have hin : ∀ s i, i ≤ (w.strings s).length → Inside rep (w.strings s) i (off rep (w.strings s) i) :=
    fun s i hi => inside_off R Mi (r.small s) hi
  have hend : ∀ s, off rep (w.strings s) (w.strings s).length = (rep (w.strings s)).length := by
    intro s; rw [off, List.take_length]
  cases st with
  | plain op =>
    obtain ⟨σ, hid, rfl⟩ := hd
    obtain ⟨hsm, N, hN⟩ := step_refines R hs w.strings r.small op ha σ o hid
    have hst := ideal_stores sort w.strings σ op o ha hid
    rw [← r.strings] at hN
    cases hop : storesInto op with
    | some d =>
      rw [hop] at hst
      obtain ⟨cs, rfl⟩ := hst
      refine ⟨_, N, r.store d cs hsm, fun fuel hf => ?_⟩
      simp only [Encoding.exec, hN fuel hf, Res.bind_ok, invalidates_eq, hop, Res.pure_eq]
    | none =>
      rw [hop] at hst
      refine ⟨_, N, r.overwrite σ hsm (fun k => (hst k).1) (fun k i => off_congr R Mi (hst k).1 (hst k).2 i),
        fun fuel hf => ?_⟩
      simp only [Encoding.exec, hN fuel hf, Res.bind_ok, invalidates_eq, hop, Res.pure_eq]
  | begin k i s =>
    obtain ⟨rfl, rfl⟩ := hd
    have h0 : off rep (w.strings s) 0 = 0 := by simp [off, R.nil]
    refine ⟨_, 0, r.setIt k i ⟨s, 0, false⟩ 0 ?_ (fun _ => h0.symm) (fun _ => rfl), fun fuel _ => rfl⟩
    have := hin s 0 (Nat.zero_le _)
    rwa [h0] at this
  | «end» k i s =>
    obtain ⟨rfl, rfl⟩ := hd
    refine ⟨_, 0, r.setIt k i ⟨s, _, false⟩ (rep (w.strings s)).length (.inl ⟨rfl, (hend s).symm⟩)
      (fun _ => (hend s).symm) (fun _ => rfl), fun fuel _ => ?_⟩
    rw [← hstr]; rfl
  | assign k i j =>
    obtain ⟨x, hx, rfl, rfl⟩ := hd
    obtain ⟨p, h1, h2, h3, h4⟩ := r.getIt hx
    refine ⟨_, 0, r.setIt k i x p h2 h3 h4, fun fuel _ => ?_⟩
    simp only [Encoding.exec, h1, Res.bind_ok, Res.pure_eq]
  | next k i =>
    obtain ⟨x, hx, rfl, rfl⟩ := hd
    obtain ⟨x', hx', hlt⟩ := ha
    rw [hx] at hx'; cases hx'
    obtain ⟨p, h1, h2, h3, h4⟩ := r.getIt hx
    have hinc := Mi.inc _ (r.small x.string) x.index p hlt h2
    refine ⟨_, 0, r.setIt k i ⟨x.string, x.index + 1, false⟩ _ (hin x.string (x.index + 1) hlt) (fun _ => rfl)
      (fun _ => rfl), fun fuel _ => ?_⟩
    simp only [Encoding.exec, h1, hstr, hinc, Res.bind_ok, Res.pure_eq]
  | prev k i =>
    obtain ⟨x, hx, rfl, rfl⟩ := hd
    obtain ⟨x', hx', hlt⟩ := ha
    rw [hx] at hx'; cases hx'
    obtain ⟨p, h1, h2, h3, h4⟩ := r.getIt hx
    have hle := h2.le
    have hdec := Mi.dec _ (r.small x.string) (x.index - 1) p (by rwa [Nat.sub_add_cancel hlt])
    refine ⟨_, 0, r.setIt k i ⟨x.string, x.index - 1, false⟩ _ (hin x.string (x.index - 1) (by omega)) (fun _ => rfl)
      (fun _ => rfl), fun fuel _ => ?_⟩
    simp only [Encoding.exec, h1, hstr, hdec, Res.bind_ok, Res.pure_eq]
  | get k i =>
    obtain ⟨x, c, hx, hc, rfl, rfl⟩ := hd
    obtain ⟨p, h1, h2, h3, h4⟩ := r.getIt hx
    have hder := Mi.deref _ (r.small x.string) x.index p c hc h2
    cases k with
    | const =>
      have hw := h4 rfl
      have hset := r.setIt .const i x p h2 h3 h4
      have e : w1.setIt .const i x = w1 := by
        cases w1
        simp only [World.setIt, World.mk.injEq, true_and, and_true]
        funext k' i'
        split
        · rename_i h; rw [h.1, h.2]; exact hx.symm
        · rfl
      rw [e] at hset
      refine ⟨_, 0, hset, fun fuel _ => ?_⟩
      have hp := h3 hw
      simp only [Encoding.exec, h1, hstr, hder, Res.bind_ok, Res.pure_eq, hp]
      rw [hp] at hder
      rw [hder]; rfl
    | «mut» =>
      refine ⟨M, 0, r, fun fuel _ => ?_⟩
      simp only [Encoding.exec, h1, hstr, hder, Res.bind_ok, Res.pure_eq]
  | same k i j =>
    obtain ⟨x, y, hx, hy, rfl, rfl⟩ := hd
    obtain ⟨x', y', hx', hy', hxy⟩ := ha
    rw [hx] at hx'; cases hx'
    rw [hy] at hy'; cases hy'
    obtain ⟨p, h1, h2, _⟩ := r.getIt hx
    obtain ⟨q, k1, k2, _⟩ := r.getIt hy
    rw [← hxy] at k1 k2
    have heq := Mi.eq _ (r.small x.string) x.index y.index p q h2 k2
    refine ⟨M, 0, r, fun fuel _ => ?_⟩
    simp only [Encoding.exec, h1, k1, hstr, heq, Res.bind_ok, Res.pure_eq, if_true]
    rfl
  | set i c =>
    obtain ⟨x, n, hx, hc, rfl, rfl⟩ := hd
    obtain ⟨x', n', old, hx', hc', hold, henc, hsz, hone⟩ := ha
    rw [hx] at hx'; cases hx'
    have hnn : n = n' := by rw [hc] at hc'; exact Int.ofNat.inj hc'
    subst hnn
    obtain ⟨p, h1, h2, h3, h4⟩ := r.getIt hx
    have hi : x.index < (w.strings x.string).length := (List.getElem?_eq_some_iff.mp hold).1
    have hp : p = off rep (w.strings x.string) x.index := by
      cases hw : x.written with
      | false => exact h3 hw
      | true =>
        have h1o := hone hw
        have hlen1 : (rep [old]).length = (rep [0]).length := Mi.sameLen _ _ (by rw [h1o]; rfl)
        have hsub := r.small x.string
        rcases h2 with ⟨h, _⟩ | ⟨_, h5, h6⟩
        · omega
        · rw [off, take_succ_of_getElem? hold, R.append, List.length_append, hlen1, Mi.one] at h6
          simp only [off] at h5 ⊢
          omega
    obtain ⟨q, hq, q1, q2⟩ := Mi.assign _ _ old n (by rw [← split_at hold]; exact r.small x.string) henc hsz
    have hset : (w.strings x.string).set x.index n =
        (w.strings x.string).take x.index ++ n :: (w.strings x.string).drop (x.index + 1) :=
      List.set_eq_take_append_cons_drop.trans (by simp [hi])
    rw [← split_at hold, ← hset] at hq
    have hst := ideal_stores sort w.strings _ (.write x.string x.index c) .none
      ⟨n, old, hc, hold, henc, hsz⟩ ⟨⟨n, hc, rfl⟩, rfl⟩
    have hsm : Small (put w.strings x.string ((w.strings x.string).set x.index n)) := by
      refine small_upd r.small _ fun y hy => ?_
      rcases List.mem_or_eq_of_mem_set hy with h | rfl
      · exact r.small _ y h
      · exact encodable_lt henc
    have hov := r.overwrite _ hsm (fun k => (hst k).1) (fun k i => off_congr R Mi (hst k).1 (hst k).2 i)
    have hget : ((w.strings x.string).set x.index n)[x.index]? = some n := by simp [hi]
    have hfin := hov.setIt .mut i ⟨x.string, x.index, true⟩ q
      (.inr ⟨by simpa [put] using hi, by
        simp only [put, if_true, off]
        rw [List.take_set_of_le (Nat.le_refl _)]; exact q1, by
        simp only [put, if_true, off]
        rw [take_succ_of_getElem? hget, List.take_set_of_le (Nat.le_refl _)]; exact q2⟩)
      (fun h => by cases h) (fun h => by cases h)
    refine ⟨_, 0, hfin, fun fuel _ => ?_⟩
    simp only [Encoding.exec, h1, hstr, Res.bind_ok, hp]
    rw [off, show c = (n : Int) from hc, hq]
    simp only [Res.bind_ok, stored_nul, Res.pure_eq, r.strings]
    rw [comp_upd]
  | appendBetween d i j =>
    obtain ⟨x, y, hx, hy, rfl, rfl⟩ := hd
    obtain ⟨x', y', hx', hy', hxy, hle⟩ := ha
    rw [hx] at hx'; cases hx'
    rw [hy] at hy'; cases hy'
    obtain ⟨p, h1, h2, h3, h4⟩ := r.getIt hx
    obtain ⟨q, k1, k2, k3, k4⟩ := r.getIt hy
    rw [← hxy] at k1 k2 k3
    obtain ⟨pos, _, _, hpos, _, _, happ⟩ := R.sim (w.strings x.string) (r.small x.string)
    have := happ (w.strings d) x.index y.index hle k2.le
    rw [hpos _ h2.le, hpos _ k2.le] at this
    refine ⟨_, 0, r.store d _ (small_upd r.small d ?_), fun fuel _ => ?_⟩
    · intro c hc
      rcases List.mem_append.mp hc with h | h
      · exact r.small d c h
      · exact r.small x.string c (List.mem_of_mem_take (List.mem_of_mem_drop h))
    · simp only [Encoding.exec, h1, k1, Res.bind_ok, if_true, hstr, h3 (h4 rfl), k3 (k4 rfl)]
      rw [off, off, this]
      simp only [Res.bind_ok, Res.pure_eq, Machine.setString, r.strings]
      rw [comp_upd]
  | gbegin g s =>
    obtain ⟨n, hn, rfl, rfl⟩ := hd
    have hn := firstGrapheme_eq hn
    rw [List.drop_zero] at hn
    obtain ⟨pos, h0, hl, hpos, S, _, _⟩ := R.sim (w.strings s) (r.small s)
    have hle : n ≤ (w.strings s).length := by
      rw [hn]; have := firstLen_le (ints (w.strings s)); simpa using this
    refine ⟨_, (w.strings s).length + 1, r.setGit g ⟨s, 0, n⟩ (Nat.zero_le _) hle ?_, fun fuel hf => ?_⟩
    · intro h
      have h : 0 = n := h
      show 0 = (w.strings s).length
      rcases List.eq_nil_or_concat (w.strings s) with he | ⟨_, _, he⟩
      · rw [he]; rfl
      · have := firstLen_pos (l := ints (w.strings s)) (by rw [he]; simp)
        omega
    · have := graphemeBegin_sim S fuel (by simp; omega)
      rw [← hn, List.length_map, hl, h0, hpos n hle] at this
      simp only [Encoding.exec, hstr, this, Res.bind_ok, Res.pure_eq]
      simp [off, R.nil]
  | gend g s =>
    obtain ⟨rfl, rfl⟩ := hd
    obtain ⟨pos, h0, hl, hpos, S, hz, _⟩ := R.sim (w.strings s) (r.small s)
    refine ⟨_, (w.strings s).length + 1, r.setGit g ⟨s, _, _⟩ (Nat.le_refl _) (Nat.le_refl _) (fun _ => rfl),
      fun fuel hf => ?_⟩
    have := graphemeEnd_sim S fuel (by simp; omega) 0 (by simpa using hz) (fun a _ => brk_zero a)
    rw [List.length_map, hl, h0] at this
    simp only [Encoding.exec, hstr, this, Res.bind_ok, Res.pure_eq, hend]
  | gassign g h =>
    obtain ⟨x, hx, rfl, rfl⟩ := hd
    obtain ⟨h1, h2, h3, h4⟩ := r.getGit hx
    refine ⟨_, 0, r.setGit g x h2 h3 h4, fun fuel _ => ?_⟩
    simp only [Encoding.exec, h1, Res.bind_ok, Res.pure_eq]
  | gnext g =>
    obtain ⟨x, n, hx, hn, rfl, rfl⟩ := hd
    obtain ⟨h1, h2, h3, h4⟩ := r.getGit hx
    have hn := firstGrapheme_eq hn
    obtain ⟨pos, h0, hl, hpos, S, _, _⟩ := R.sim (w.strings x.string) (r.small x.string)
    have hle : n ≤ (w.strings x.string).length - x.last := by
      rw [hn]; have := firstLen_le ((ints (w.strings x.string)).drop x.last); simpa using this
    refine ⟨_, (w.strings x.string).length + 1, r.setGit g ⟨x.string, x.last, x.last + n⟩ (Nat.le_add_right _ _)
      (show x.last + n ≤ (w.strings x.string).length by omega) ?_, fun fuel hf => ?_⟩
    · intro h
      have h : x.last = x.last + n := h
      show x.last = (w.strings x.string).length
      rcases Nat.lt_or_eq_of_le h3 with hlt | he
      · have := firstLen_pos (l := (ints (w.strings x.string)).drop x.last) (by
          intro hnil
          have := congrArg List.length hnil
          simp at this; omega)
        omega
      · exact he
    · have := findEnd_sim S fuel x.last (by simpa using h3) (by simp; omega)
      rw [← hn, List.length_map, hl, hpos _ h3, hpos _ (by omega)] at this
      simp only [Encoding.exec, h1, hstr, Res.bind_ok, GIter.inc, off, this, Res.pure_eq]
  | gget g =>
    obtain ⟨x, hx, rfl, rfl⟩ := hd
    obtain ⟨h1, h2, h3, h4⟩ := r.getGit hx
    obtain ⟨pos, h0, hl, hpos, S, _, _⟩ := R.sim (w1.strings x.string) (r.small x.string)
    refine ⟨M, (w1.strings x.string).length + 1, r, fun fuel hf => ?_⟩
    have := readRange_eq S x.first x.last h2 (by simpa using h3) fuel (by omega)
    rw [hpos _ h3, hpos _ (by omega)] at this
    simp only [Encoding.exec, h1, hstr, Res.bind_ok, off, this, Res.pure_eq]
    simp [ints]
  | gsame g h =>
    obtain ⟨x, y, b, hx, hy, hb, rfl, rfl⟩ := hd
    obtain ⟨x', y', hx', hy', hxy⟩ := ha
    rw [hx] at hx'; cases hx'
    rw [hy] at hy'; cases hy'
    obtain ⟨h1, h2, h3, h4⟩ := r.getGit hx
    obtain ⟨k1, k2, k3, k4⟩ := r.getGit hy
    rw [← hxy] at k1 k3 k4
    obtain ⟨pos, h0, hl, hpos, S, _, _⟩ := R.sim (w1.strings x.string) (r.small x.string)
    refine ⟨M, (w1.strings x.string).length + 1, r, fun fuel hf => ?_⟩
    have := eqG_sim S fuel 0 0 x.first x.last y.first y.last h2 (by simpa using h3) k2 (by simpa using k3)
      (by simp; omega)
    rw [List.length_map, hl, h0, hpos _ h3, hpos _ k3, hpos _ (by omega), hpos _ (by omega)] at this
    simp only [Encoding.exec, h1, k1, hstr, Res.bind_ok, off, if_true, this, Res.pure_eq]
    congr 3
    rw [Bool.eq_iff_iff, hb, decide_eq_true_eq, Span.Same]
    constructor
    · rintro (h | ⟨i, i1, i2, i3 | i3⟩)
      · exact .inl h
      · refine .inr ⟨i, ⟨i2, i1⟩, ?_⟩
        have := k4
        rcases Nat.lt_or_eq_of_le k2 with hl | he
        · omega
        · have := k4 he; omega
      · exact .inr ⟨i, ⟨i2, i1⟩, i3⟩
    · rintro (h | ⟨i, ⟨i1, i2⟩, i3⟩)
      · exact .inl h
      · exact .inr ⟨i, i2, i1, .inr i3⟩
  | gfirst i g =>
    obtain ⟨x, hx, rfl, rfl⟩ := hd
    obtain ⟨h1, h2, h3, h4⟩ := r.getGit hx
    refine ⟨_, 0, r.setIt .const i ⟨x.string, x.first, false⟩ _ (hin _ _ (Nat.le_trans h2 h3)) (fun _ => rfl)
      (fun _ => rfl), fun fuel _ => ?_⟩
    simp only [Encoding.exec, h1, Res.bind_ok, Res.pure_eq]
  | glast i g =>
    obtain ⟨x, hx, rfl, rfl⟩ := hd
    obtain ⟨h1, h2, h3, h4⟩ := r.getGit hx
    refine ⟨_, 0, r.setIt .const i ⟨x.string, x.last, false⟩ _ (hin _ _ h3) (fun _ => rfl)
      (fun _ => rfl), fun fuel _ => ?_⟩
    simp only [Encoding.exec, h1, Res.bind_ok, Res.pure_eq]

theorem runClient_refines [DecidableEq α] {E : Encoding α} (R : Refines E rep) (Mi : RefinesMid E rep) {sort : SortFn}
    (hs : ConformingSort sort) (client : Client) (n : Nat) {w w' : World} {M : Machine α} (os os' : List Obs)
    (hrun : (libraryData sort).Runs client n w os w' os') (r : Rel rep w M)
    (ha : (libraryData sort).MayRun client n w os) :
    ∃ M' N, Rel rep w' M' ∧ ∀ fuel, N ≤ fuel → E.runClient sort fuel client n M os = .ok (M', os') := by
  induction hrun generalizing M with
  | limit w os => exact ⟨M, 0, r, fun _ _ => rfl⟩
  | finished n w os hc => exact ⟨M, 0, r, fun _ _ => by simp only [Encoding.runClient, hc]⟩
  | step n w os st w1 o w2 os2 hc hd _ ih =>
    obtain ⟨hm, hrest⟩ := ha st hc
    obtain ⟨M1, N1, r1, h1⟩ := exec_refines R Mi hs r st hm w1 o hd
    obtain ⟨M2, N2, r2, h2⟩ := ih r1 (hrest w1 o hd)
    refine ⟨M2, max N1 N2, r2, fun fuel hf => ?_⟩
    simp only [Encoding.runClient, hc, h1 fuel (by omega), Res.bind_ok, h2 fuel (by omega)]

theorem runs_exists (sort : SortFn) (client : Client) (n : Nat) : ∀ (w : World) (os : List Obs),
    (libraryData sort).MayRun client n w os → ∃ w' os', (libraryData sort).Runs client n w os w' os' := by
  induction n with
  | zero => intro w os _; exact ⟨w, os, .limit w os⟩
  | succ n ih =>
    intro w os ha
    cases hc : client os with
    | none => exact ⟨w, os, .finished n w os hc⟩
    | some st =>
      obtain ⟨hm, hrest⟩ := ha st hc
      obtain ⟨w1, o, hd⟩ := does_exists sort w st hm
      obtain ⟨w2, os2, hr⟩ := ih w1 _ (hrest w1 o hd)
      exact ⟨w2, os2, .step n w os st w1 o w2 os2 hc hd hr⟩

theorem rel_start (rep : List Nat → List α) (σ : Nat → List Nat) (hσ : Small σ) :
    Rel rep (World.start σ) (Machine.start fun k => rep (σ k)) where
  strings := rfl
  small := hσ
  it k i x h := by simp [World.start] at h
  stale k i _ s g p h := by simp [Machine.start] at h
  git g x h := by simp [World.start] at h
  gstale g _ s n x h := by simp [Machine.start] at h

/-- C62. Let a program hold iterators and let it choose each statement by what it has printed so far. As long as its
statements are permitted (in particular, the iterators it uses are valid), it does what it should do on sequences of
codepoints, on UTF-8 strings and on utf32ne strings alike: the same output and the same strings, for any number of
statements. -/
theorem C62_programs_with_iterators (sort : SortFn) (hs : ConformingSort sort) (client : Client) (n : Nat)
    (σ : Nat → List Nat) (hσ : ∀ k, ∀ c ∈ σ k, c < 2 ^ 31)
    (ha : (libraryData sort).MayRun client n (World.start σ) []) :
    ∃ w os N, (libraryData sort).Runs client n (World.start σ) [] w os ∧ ∀ fuel, N ≤ fuel →
      (∃ M, enc8.runClient sort fuel client n (Machine.start fun k => encodeText (σ k)) [] = .ok (M, os) ∧
        M.strings = fun k => encodeText (w.strings k)) ∧
      (∃ M, enc32.runClient sort fuel client n (Machine.start fun k => ints (σ k)) [] = .ok (M, os) ∧
        M.strings = fun k => ints (w.strings k)) := by
  obtain ⟨w, os, hr⟩ := runs_exists sort client n _ _ ha
  obtain ⟨M8, N8, r8, h8⟩ := runClient_refines refines8 refinesMid8 hs client n _ _ hr (rel_start _ σ hσ) ha
  obtain ⟨M32, N32, r32, h32⟩ := runClient_refines refines32 refinesMid32 hs client n _ _ hr (rel_start _ σ hσ) ha
  exact ⟨w, os, max N8 N32, hr, fun fuel hf => ⟨⟨M8, h8 fuel (by omega), r8.strings⟩, ⟨M32, h32 fuel (by omega), r32.strings⟩⟩⟩

theorem Rel.it_ub (r : Rel rep w M) {k : Kind} {i : Nat} (h : w.its k i = none) : M.it k i = .ub := by
  rw [Machine.it]
  cases hm : M.its k i with
  | none => rfl
  | some y =>
    obtain ⟨s, g, p⟩ := y
    have := r.stale k i h s g p hm
    simp only
    rw [if_neg (by omega)]

theorem Rel.git_ub (r : Rel rep w M) {g : Nat} (h : w.gits g = none) : M.git g = .ub := by
  rw [Machine.git]
  cases hm : M.gits g with
  | none => rfl
  | some y =>
    obtain ⟨s, n, p⟩ := y
    have := r.gstale g h s n p hm
    simp only
    rw [if_neg (by omega)]

theorem Machine.it_ok_or_ub (M : Machine α) (k : Kind) (i : Nat) : (∃ s p, M.it k i = .ok (s, p)) ∨ M.it k i = .ub := by
  rw [Machine.it]
  split
  · split
    · exact .inl ⟨_, _, rfl⟩
    · exact .inr rfl
  · exact .inr rfl

theorem Machine.git_ok_or_ub (M : Machine α) (g : Nat) : (∃ s p, M.git g = .ok (s, p)) ∨ M.git g = .ub := by
  rw [Machine.git]
  split
  · split
    · exact .inl ⟨_, _, rfl⟩
    · exact .inr rfl
  · exact .inr rfl

theorem Machine.it_bind_ub (M : Machine α) (k : Kind) (i : Nat) : (M.it k i >>= fun _ => (.ub : Res β)) = .ub := by
  rcases M.it_ok_or_ub k i with ⟨s, p, h⟩ | h <;> rw [h] <;> rfl

theorem Machine.git_bind_ub (M : Machine α) (g : Nat) : (M.git g >>= fun _ => (.ub : Res β)) = .ub := by
  rcases M.git_ok_or_ub g with ⟨s, p, h⟩ | h <;> rw [h] <;> rfl

theorem exec_stale [DecidableEq α] (E : Encoding α) (sort : SortFn) (r : Rel rep w M) (st : Stmt) (hu : UsesInvalid w st)
    (fuel : Nat) : E.exec sort fuel M st = .ub := by
  rcases hu with ⟨⟨k, i⟩, hv, hn⟩ | ⟨g, hv, hn⟩ | ⟨⟨k, i⟩, hv, ⟨k', j⟩, hv', x, y, hx, hy, hne⟩ |
    ⟨g, hv, h, hv', x, y, hx, hy, hne⟩
  · have hub : M.it k i = .ub := r.it_ub hn
    cases st <;> simp only [uses, List.mem_cons, List.not_mem_nil, or_false, Prod.mk.injEq] at hv
    all_goals first
      | (obtain ⟨rfl, rfl⟩ := hv; simp only [Encoding.exec, hub, Res.bind_ub]; done)
      | (rcases hv with ⟨rfl, rfl⟩ | ⟨rfl, rfl⟩ <;> simp only [Encoding.exec, hub, Res.bind_ub, Machine.it_bind_ub])
  · have hub : M.git g = .ub := r.git_ub hn
    cases st <;> simp only [uses, List.mem_cons, List.not_mem_nil, or_false] at hv
    all_goals first
      | (subst hv; simp only [Encoding.exec, hub, Res.bind_ub]; done)
      | (rcases hv with rfl | rfl <;> simp only [Encoding.exec, hub, Res.bind_ub, Machine.git_bind_ub])
  · obtain ⟨p, h1, _⟩ := r.getIt hx
    obtain ⟨q, h2, _⟩ := r.getIt hy
    dsimp only at hx hy h1 h2
    have hne' : y.string ≠ x.string := fun e => hne e.symm
    cases st <;> simp only [uses, List.mem_cons, List.not_mem_nil, or_false, Prod.mk.injEq] at hv hv'
    all_goals first
      | (obtain ⟨rfl, rfl⟩ := hv; obtain ⟨rfl, rfl⟩ := hv'; rw [hx] at hy; cases hy; exact absurd rfl hne; done)
      | (rcases hv with ⟨rfl, rfl⟩ | ⟨rfl, rfl⟩ <;> rcases hv' with ⟨rfl, rfl⟩ | ⟨rfl, rfl⟩
         all_goals first
          | (rw [hx] at hy; cases hy; exact absurd rfl hne)
          | simp only [Encoding.exec, h1, h2, Res.bind_ok, if_neg hne, if_neg hne'])
  · obtain ⟨h1, _⟩ := r.getGit hx
    obtain ⟨h2, _⟩ := r.getGit hy
    have hne' : y.string ≠ x.string := fun e => hne e.symm
    cases st <;> simp only [uses, List.mem_cons, List.not_mem_nil, or_false] at hv hv'
    all_goals first
      | (subst hv; subst hv'; rw [hx] at hy; cases hy; exact absurd rfl hne; done)
      | (rcases hv with rfl | rfl <;> rcases hv' with rfl | rfl
         all_goals first
          | (rw [hx] at hy; cases hy; exact absurd rfl hne)
          | simp only [Encoding.exec, h1, h2, Res.bind_ok, if_neg hne, if_neg hne'])

theorem runClient_ub [DecidableEq α] (E : Encoding α) (sort : SortFn) (fuel : Nat) (client : Client) (st : Stmt) (n : Nat) :
    ∀ (M M' : Machine α) (os os' : List Obs), E.runClient sort fuel client n M os = .ok (M', os') →
    client os' = some st → E.exec sort fuel M' st = .ub → E.runClient sort fuel client (n + 1) M os = .ub := by
  induction n with
  | zero =>
    intro M M' os os' h hc he
    simp only [Encoding.runClient, Res.ok.injEq, Prod.mk.injEq] at h
    obtain ⟨rfl, rfl⟩ := h
    simp only [Encoding.runClient, hc, he, Res.bind_ub]
  | succ n ih =>
    intro M M' os os' h hc he
    rw [Encoding.runClient] at h ⊢
    cases hc2 : client os with
    | none =>
      rw [hc2] at h
      simp only [Res.ok.injEq, Prod.mk.injEq] at h
      rw [h.2, hc] at hc2; cases hc2
    | some st2 =>
      rw [hc2] at h
      simp only at h ⊢
      cases hx : E.exec sort fuel M st2 with
      | ok y => rw [hx] at h; rw [Res.bind_ok] at h ⊢; exact ih _ _ _ _ h hc he
      | ub => rw [Res.bind_ub]
      | tmo => rw [hx] at h; cases h

/-- C62, the other side: once a program that has behaved so far uses an iterator variable without a valid value - one
never set, or one whose string has been stored into since - or compares or takes a range between iterators of two
strings, its behaviour is undefined in both encodings. -/
theorem C62_invalid_iterators_undefined (sort : SortFn) (hs : ConformingSort sort) (client : Client) (n : Nat)
    (σ : Nat → List Nat) (hσ : ∀ k, ∀ c ∈ σ k, c < 2 ^ 31)
    (ha : (libraryData sort).MayRun client n (World.start σ) []) (w : World) (os : List Obs)
    (hr : (libraryData sort).Runs client n (World.start σ) [] w os) (st : Stmt) (hc : client os = some st)
    (hu : UsesInvalid w st) :
    ∃ N, ∀ fuel, N ≤ fuel →
      enc8.runClient sort fuel client (n + 1) (Machine.start fun k => encodeText (σ k)) [] = .ub ∧
      enc32.runClient sort fuel client (n + 1) (Machine.start fun k => ints (σ k)) [] = .ub := by
  obtain ⟨M8, N8, r8, h8⟩ := runClient_refines refines8 refinesMid8 hs client n _ _ hr (rel_start _ σ hσ) ha
  obtain ⟨M32, N32, r32, h32⟩ := runClient_refines refines32 refinesMid32 hs client n _ _ hr (rel_start _ σ hσ) ha
  exact ⟨max N8 N32, fun fuel hf =>
    ⟨runClient_ub enc8 sort fuel client st n _ _ _ _ (h8 fuel (by omega)) hc (exec_stale enc8 sort r8 st hu fuel),
     runClient_ub enc32 sort fuel client st n _ _ _ _ (h32 fuel (by omega)) hc (exec_stale enc32 sort r32 st hu fuel)⟩⟩

theorem does_unique (sort : SortFn) (w : World) (st : Stmt) {w1 w2 : World} {o1 o2 : Obs}
    (h1 : (libraryData sort).Does w st w1 o1) (h2 : (libraryData sort).Does w st w2 o2) : w1 = w2 ∧ o1 = o2 := by
  cases st with
  | plain op =>
    obtain ⟨σ, h, rfl⟩ := h1
    obtain ⟨τ, h', rfl⟩ := h2
    obtain ⟨rfl, rfl⟩ := ideal_unique sort w.strings op h h'
    exact ⟨rfl, rfl⟩
  | begin | «end» | gend => obtain ⟨rfl, rfl⟩ := h1; obtain ⟨rfl, rfl⟩ := h2; exact ⟨rfl, rfl⟩
  | assign | next | prev | gassign | gget | gfirst | glast =>
    obtain ⟨x, hx, rfl, rfl⟩ := h1
    obtain ⟨y, hy, rfl, rfl⟩ := h2
    rw [hx] at hy; cases hy
    exact ⟨rfl, rfl⟩
  | get k i =>
    obtain ⟨x, c, hx, hc, rfl, rfl⟩ := h1
    obtain ⟨y, d, hy, hd, rfl, rfl⟩ := h2
    rw [hx] at hy; cases hy
    rw [hc] at hd; cases hd
    exact ⟨rfl, rfl⟩
  | same k i j =>
    obtain ⟨x, y, hx, hy, rfl, rfl⟩ := h1
    obtain ⟨x', y', hx', hy', rfl, rfl⟩ := h2
    rw [hx] at hx'; cases hx'
    rw [hy] at hy'; cases hy'
    exact ⟨rfl, rfl⟩
  | set i c =>
    obtain ⟨x, n, hx, hn, rfl, rfl⟩ := h1
    obtain ⟨x', n', hx', hn', rfl, rfl⟩ := h2
    rw [hx] at hx'; cases hx'
    rw [hn] at hn'; cases hn'
    exact ⟨rfl, rfl⟩
  | appendBetween d i j =>
    obtain ⟨x, y, hx, hy, rfl, rfl⟩ := h1
    obtain ⟨x', y', hx', hy', rfl, rfl⟩ := h2
    rw [hx] at hx'; cases hx'
    rw [hy] at hy'; cases hy'
    exact ⟨rfl, rfl⟩
  | gbegin g s =>
    obtain ⟨n, hn, rfl, rfl⟩ := h1
    obtain ⟨m, hm, rfl, rfl⟩ := h2
    rw [firstGrapheme_eq hn, firstGrapheme_eq hm]
    exact ⟨rfl, rfl⟩
  | gnext g =>
    obtain ⟨x, n, hx, hn, rfl, rfl⟩ := h1
    obtain ⟨y, m, hy, hm, rfl, rfl⟩ := h2
    rw [hx] at hy; cases hy
    rw [firstGrapheme_eq hn, firstGrapheme_eq hm]
    exact ⟨rfl, rfl⟩
  | gsame g h =>
    obtain ⟨x, y, b, hx, hy, hb, rfl, rfl⟩ := h1
    obtain ⟨x', y', b', hx', hy', hb', rfl, rfl⟩ := h2
    rw [hx] at hx'; cases hx'
    rw [hy] at hy'; cases hy'
    rw [Bool.eq_iff_iff.mpr (hb.trans hb'.symm)]
    exact ⟨rfl, rfl⟩

/-- C62: the specification leaves no choice, so what C62_programs_with_iterators describes is the only thing a permitted
program can do. -/
theorem C62_deterministic (sort : SortFn) (client : Client) (n : Nat) (w w1 w2 : World) (os os1 os2 : List Obs)
    (h1 : (libraryData sort).Runs client n w os w1 os1) (h2 : (libraryData sort).Runs client n w os w2 os2) :
    w1 = w2 ∧ os1 = os2 := by
  induction h1 generalizing w2 os2 with
  | limit w os => cases h2; exact ⟨rfl, rfl⟩
  | finished n w os hc =>
    cases h2 with
    | finished => exact ⟨rfl, rfl⟩
    | step _ _ _ st _ _ _ _ hc' => rw [hc] at hc'; cases hc'
  | step n w os st w1 o w2 os2 hc hd _ ih =>
    cases h2 with
    | finished _ _ _ hc' => rw [hc] at hc'; cases hc'
    | step _ _ _ st' _ _ _ _ hc' hd' hr =>
      rw [hc] at hc'; cases hc'
      obtain ⟨rfl, rfl⟩ := does_unique sort w st hd hd'
      exact ih _ _ hr

/-- Instance: two statements of one program. -/
example (w : World) (os : List Obs) (h : (libraryData insSort).Runs
    (fun os => [Stmt.begin .const 0 0, .end .const 1 1][os.length]?) 1 (World.start fun _ => [0x65]) [] w os) :
    os = [.none] :=
  (C62_deterministic insSort _ 1 _ w _ [] os [.none] h
    (.step 0 _ _ (.begin .const 0 0) _ _ _ _ rfl ⟨rfl, rfl⟩ (.limit _ _))).2

/-- `Does` as a function, with a default where a variable has no value. -/
def doesF (sort : SortFn) (w : World) : Stmt → World × Obs
  | .plain op => (w.stored (idealF sort w.strings op).1 (storesInto op), (idealF sort w.strings op).2)
  | .begin k i s => (w.setIt k i ⟨s, 0, false⟩, .none)
  | .end k i s => (w.setIt k i ⟨s, (w.strings s).length, false⟩, .none)
  | .assign k i j => match w.its k j with
    | some x => (w.setIt k i x, .none)
    | none => (w, .none)
  | .next k i => match w.its k i with
    | some x => (w.setIt k i ⟨x.string, x.index + 1, false⟩, .none)
    | none => (w, .none)
  | .prev k i => match w.its k i with
    | some x => (w.setIt k i ⟨x.string, x.index - 1, false⟩, .none)
    | none => (w, .none)
  | .get k i => match w.its k i with
    | some x => (w, .codepoints [Int.ofNat ((w.strings x.string)[x.index]?.getD 0)])
    | none => (w, .none)
  | .same k i j => match w.its k i, w.its k j with
    | some x, some y => (w, .bool (x.index == y.index))
    | _, _ => (w, .none)
  | .set i c => match w.its .mut i with
    | some x => (({ w with strings := put w.strings x.string ((w.strings x.string).set x.index c.toNat) } : World).setIt
        .mut i ⟨x.string, x.index, true⟩, .none)
    | none => (w, .none)
  | .appendBetween d i j => match w.its .const i, w.its .const j with
    | some x, some y => (w.stored (put w.strings d (w.strings d ++ ((w.strings x.string).take y.index).drop x.index))
        (some d), .none)
    | _, _ => (w, .none)
  | .gbegin g s => (w.setGit g ⟨s, 0, firstLen (ints (w.strings s))⟩, .none)
  | .gend g s => (w.setGit g ⟨s, (w.strings s).length, (w.strings s).length⟩, .none)
  | .gassign g h => match w.gits h with
    | some x => (w.setGit g x, .none)
    | none => (w, .none)
  | .gnext g => match w.gits g with
    | some x => (w.setGit g ⟨x.string, x.last, x.last + firstLen ((ints (w.strings x.string)).drop x.last)⟩, .none)
    | none => (w, .none)
  | .gget g => match w.gits g with
    | some x => (w, .codepoints (ints (((w.strings x.string).take x.last).drop x.first)))
    | none => (w, .none)
  | .gsame g h => match w.gits g, w.gits h with
    | some x, some y => (w, .bool (decide (x.first = (w.strings x.string).length ∧ y.first = (w.strings x.string).length) ||
        decide (x.first < y.last ∧ y.first < x.last ∧ x.first < x.last ∧ y.first < y.last)))
    | _, _ => (w, .none)
  | .gfirst i g => match w.gits g with
    | some x => (w.setIt .const i ⟨x.string, x.first, false⟩, .none)
    | none => (w, .none)
  | .glast i g => match w.gits g with
    | some x => (w.setIt .const i ⟨x.string, x.last, false⟩, .none)
    | none => (w, .none)

theorem doesF_spec (sort : SortFn) (w : World) (st : Stmt) (ha : (libraryData sort).May w st) :
    (libraryData sort).Does w st (doesF sort w st).1 (doesF sort w st).2 := by
  have hfg : ∀ cs i, (libraryData sort).FirstGrapheme cs i (firstLen ((ints cs).drop i)) := by
    intro cs i
    obtain ⟨n, hn⟩ := firstGrapheme_exists sort cs i
    rwa [← firstGrapheme_eq hn]
  cases st with
  | plain op => exact ⟨_, idealF_spec sort w.strings op ha, rfl⟩
  | begin | «end» | gend => exact ⟨rfl, rfl⟩
  | assign k i j => obtain ⟨x, hx⟩ := ha; exact ⟨x, hx, by simp [doesF, hx]⟩
  | next k i => obtain ⟨x, hx, _⟩ := ha; exact ⟨x, hx, by simp [doesF, hx]⟩
  | prev k i => obtain ⟨x, hx, _⟩ := ha; exact ⟨x, hx, by simp [doesF, hx]⟩
  | get k i =>
    obtain ⟨x, hx, hl⟩ := ha
    exact ⟨x, _, hx, List.getElem?_eq_getElem hl, by simp [doesF, hx, hl]⟩
  | same k i j => obtain ⟨x, y, hx, hy, _⟩ := ha; exact ⟨x, y, hx, hy, by simp [doesF, hx, hy]⟩
  | set i c =>
    obtain ⟨x, n, old, hx, hc, _⟩ := ha
    exact ⟨x, n, hx, hc, by simp [doesF, hx, hc]⟩
  | appendBetween d i j => obtain ⟨x, y, hx, hy, _⟩ := ha; exact ⟨x, y, hx, hy, by simp [doesF, hx, hy]⟩
  | gbegin g s => exact ⟨_, hfg _ 0, by simp [doesF]⟩
  | gassign g h => obtain ⟨x, hx⟩ := ha; exact ⟨x, hx, by simp [doesF, hx]⟩
  | gnext g => obtain ⟨x, hx⟩ := ha; exact ⟨x, _, hx, hfg _ _, by simp [doesF, hx]⟩
  | gget g => obtain ⟨x, hx⟩ := ha; exact ⟨x, hx, by simp [doesF, hx]⟩
  | gsame g h =>
    obtain ⟨x, y, hx, hy, _⟩ := ha
    refine ⟨x, y, (decide (x.first = (w.strings x.string).length ∧ y.first = (w.strings x.string).length) ||
        decide (x.first < y.last ∧ y.first < x.last ∧ x.first < x.last ∧ y.first < y.last)), hx, hy, ?_,
      by simp only [doesF, hx, hy], by simp only [doesF, hx, hy]⟩
    rw [Bool.or_eq_true, decide_eq_true_eq, decide_eq_true_eq, Span.Same]
    refine or_congr Iff.rfl ⟨fun h => ⟨max x.first y.first, by omega, by omega⟩, ?_⟩
    rintro ⟨i, h1, h2⟩
    omega
  | gfirst i g => obtain ⟨x, hx⟩ := ha; exact ⟨x, hx, by simp [doesF, hx]⟩
  | glast i g => obtain ⟨x, hx⟩ := ha; exact ⟨x, hx, by simp [doesF, hx]⟩

/-- `May` as a computation. -/
def mayB (sort : SortFn) (w : World) : Stmt → Bool
  | .plain op => allowedB sort w.strings op
  | .begin _ _ _ | .end _ _ _ | .gbegin _ _ | .gend _ _ => true
  | .assign k _ j => (w.its k j).isSome
  | .next k i => (w.its k i).any fun x => decide (x.index < (w.strings x.string).length)
  | .prev k i => (w.its k i).any fun x => decide (0 < x.index)
  | .get k i => (w.its k i).any fun x => decide (x.index < (w.strings x.string).length)
  | .same k i j => (w.its k i).any fun x => (w.its k j).any fun y => decide (x.string = y.string)
  | .set i c => (w.its .mut i).any fun x => decide (0 ≤ c) && ((w.strings x.string)[x.index]?).any fun old =>
      decide (Encodable c.toNat) && decide ((encode c.toNat).length = (encode old).length) &&
        (!x.written || decide ((encode old).length = 1))
  | .appendBetween _ i j => (w.its .const i).any fun x => (w.its .const j).any fun y =>
      decide (x.string = y.string) && decide (x.index ≤ y.index)
  | .gassign _ h => (w.gits h).isSome
  | .gnext g | .gget g | .gfirst _ g | .glast _ g => (w.gits g).isSome
  | .gsame g h => (w.gits g).any fun x => (w.gits h).any fun y => decide (x.string = y.string)

theorem mayB_iff (sort : SortFn) (w : World) (st : Stmt) : mayB sort w st = true ↔ (libraryData sort).May w st := by
  cases st with
  | plain op => exact allowedB_iff sort w.strings op
  | begin | «end» | gbegin | gend => simp [mayB, Ucd.May]
  | assign | gassign | gnext | gget | gfirst | glast => simp [mayB, Ucd.May, Option.isSome_iff_exists]
  | next | prev | get | same | gsame | appendBetween => simp [mayB, Ucd.May, Option.any_eq_true]
  | set i c =>
    simp only [mayB, Ucd.May, Option.any_eq_true, Bool.and_eq_true, decide_eq_true_eq, Bool.or_eq_true,
      Bool.not_eq_true']
    constructor
    · rintro ⟨x, hx, hc, old, hold, ⟨he, hl⟩, hw⟩
      refine ⟨x, c.toNat, old, hx, by simp; omega, hold, he, hl, fun h => ?_⟩
      rcases hw with hw | hw
      · rw [h] at hw; cases hw
      · exact hw
    · rintro ⟨x, n, old, hx, hc, hold, he, hl, hw⟩
      have hc : c = (n : Int) := hc
      subst hc
      refine ⟨x, hx, by omega, old, hold, ⟨by simpa using he, by simpa using hl⟩, ?_⟩
      cases h : x.written with
      | false => exact .inl rfl
      | true => exact .inr (hw h)

/-- `MayRun` as a computation. -/
def mayRunB (sort : SortFn) (client : Client) : Nat → World → List Obs → Bool
  | 0, _, _ => true
  | n + 1, w, os => match client os with
    | none => true
    | some st => mayB sort w st && mayRunB sort client n (doesF sort w st).1 (os ++ [(doesF sort w st).2])

/-- C62: whether the first `n` statements of a program are permitted can be computed. -/
theorem C62_permitted_checkable (sort : SortFn) (client : Client) (n : Nat) (w : World) (os : List Obs) :
    mayRunB sort client n w os = true ↔ (libraryData sort).MayRun client n w os := by
  induction n generalizing w os with
  | zero => simp [mayRunB, Ucd.MayRun]
  | succ n ih =>
    rw [mayRunB, Ucd.MayRun]
    cases hc : client os with
    | none => simp
    | some st =>
      simp only [Option.some.injEq, forall_eq', Bool.and_eq_true, mayB_iff, ih]
      refine and_congr_right fun ha => ?_
      have hI := doesF_spec sort w st ha
      constructor
      · intro h w1 o h1
        obtain ⟨rfl, rfl⟩ := does_unique sort w st h1 hI
        exact h
      · intro h; exact h _ _ hI

/-- Non-vacuity: a loop. It turns the letters of string 0 into capitals in place, with one mutable iterator at work and
one at the end; then it goes through the graphemes and copies all but the first to string 1; then it prints string 1. -/
def capitals : Client := fun os =>
  match os.length with
  | 0 => some (.begin .mut 0 0)
  | 1 => some (.end .mut 1 0)
  | n + 2 =>
    match os.findIdx? (· == .bool true) with
    | none => -- the loop: compare, read, write, move
      match n % 4, os.getLast? with
      | 0, _ => some (.same .mut 0 1)
      | 1, _ => some (.get .mut 0)
      | 2, some (.codepoints [c]) => some (.set 0 (if 0x61 ≤ c ∧ c ≤ 0x7A then c - 32 else c))
      | 3, _ => some (.next .mut 0)
      | _, _ => none
    | some k => -- after the loop
      match os.length - (k + 1) with
      | 0 => some (.gbegin 0 0)
      | 1 => some (.gget 0)
      | 2 => some (.gnext 0)
      | 3 => some (.gfirst 0 0)
      | 4 => some (.end .const 1 0)
      | 5 => some (.appendBetween 1 0 1)
      | 6 => some (.prev .const 1)
      | 7 => some (.get .const 1)
      | 8 => some (.plain (.read 1))
      | _ => none

example : (libraryData insSort).MayRun capitals 30
    (World.start fun k => if k = 0 then [0x65, 0x301, 0x20AC, 0x66] else []) [] :=
  (C62_permitted_checkable insSort capitals 30 _ []).mp (by decide +kernel)

/-- What both encodings print at the end: the first grapheme is "E\u0301", the last codepoint "F", string 1 is "€F". -/
example : (match enc8.runClient insSort 10 capitals 30
      (Machine.start fun k => encodeText (if k = 0 then [0x65, 0x301, 0x20AC, 0x66] else [])) [] with
    | .ok (_, os) => os.drop 19 | _ => []) =
      [.none, .codepoints [0x45, 0x301], .none, .none, .none, .none, .none, .codepoints [0x46], .codepoints [0x20AC, 0x46]] ∧
    (match enc32.runClient insSort 10 capitals 30
      (Machine.start fun k => ints (if k = 0 then [0x65, 0x301, 0x20AC, 0x66] else [])) [] with
    | .ok (_, os) => os.drop 19 | _ => []) =
      [.none, .codepoints [0x45, 0x301], .none, .none, .none, .none, .none, .codepoints [0x46], .codepoints [0x20AC, 0x46]] := by
  decide +kernel

/-- A program that compares iterators of two strings, and one that appends what lies between them, meet the hypotheses of
`C62_invalid_iterators_undefined` (with the strings "e" and "fg"). -/
def crossed (last : Stmt) : Client := fun os => [Stmt.begin .const 0 0, .end .const 1 1, last][os.length]?

example (last : Stmt) (hl : last = .same .const 0 1 ∨ last = .appendBetween 2 0 1) :
    ∃ w os, (libraryData insSort).MayRun (crossed last) 2 (World.start fun k => [[0x65], [0x66, 0x67]].getD k []) [] ∧
      (libraryData insSort).Runs (crossed last) 2 (World.start fun k => [[0x65], [0x66, 0x67]].getD k []) [] w os ∧
      crossed last os = some last ∧ UsesInvalid w last := by
  refine ⟨_, [.none, .none], ?_, .step 1 _ _ (.begin .const 0 0) _ _ _ _ rfl ⟨rfl, rfl⟩
    (.step 0 _ _ (.end .const 1 1) _ _ _ _ rfl ⟨rfl, rfl⟩ (.limit _ _)), rfl, ?_⟩
  · refine fun st hst => ⟨?_, fun w1 o h1 st2 hst2 => ⟨?_, fun _ _ _ => trivial⟩⟩
    · cases hst; trivial
    · cases hst; obtain ⟨_, rfl⟩ := h1; cases hst2; trivial
  · refine .inr (.inr (.inl ?_))
    rcases hl with rfl | rfl
    all_goals exact ⟨(.const, 0), by simp [uses], (.const, 1), by simp [uses], ⟨0, 0, false⟩, ⟨1, 2, false⟩, rfl, rfl, by decide⟩

/-- C62: the restrictions are needed. Assigning twice through the same iterator without moving it corrupts a UTF-8 string
(the iterator has stopped at the last octet written); an iterator used after its string was appended to is undefined. -/
theorem C62_restrictions_needed :
    let run := fun (l : List Stmt) => fun (os : List Obs) => l[os.length]?
    let prints8 := fun l => (match enc8.runClient insSort 20 (run l) 10
        (Machine.start fun k => encodeText (if k = 0 then [0xE9] else [])) [] with
      | .ok (_, os) => some os | _ => none)
    let prints32 := fun l => (match enc32.runClient insSort 20 (run l) 10
        (Machine.start fun k => ints (if k = 0 then [0xE9] else [])) [] with
      | .ok (_, os) => some os | _ => none)
    prints32 [.begin .mut 0 0, .set 0 0xE8, .set 0 0xE7, .plain (.read 0)] =
      some [.none, .none, .none, .codepoints [0xE7]] ∧
    prints8 [.begin .mut 0 0, .set 0 0xE8, .set 0 0xE7, .plain (.read 0)] ≠
      some [.none, .none, .none, .codepoints [0xE7]] ∧
    prints8 [.begin .mut 0 0, .set 0 0xE8, .get .mut 0, .set 0 0xE7, .plain (.read 0)] ≠
      prints32 [.begin .mut 0 0, .set 0 0xE8, .get .mut 0, .set 0 0xE7, .plain (.read 0)] ∧
    prints8 [.begin .const 0 0, .plain (.appendCps 0 [0x61]), .get .const 0] = none := by decide +kernel

/-- `C62_programs_with_iterators` applied to the loop above. -/
example := C62_programs_with_iterators insSort insSort_stable.1
  capitals 30 (fun k => if k = 0 then [0x65, 0x301, 0x20AC, 0x66] else []) (by
    intro k c hc
    split at hc <;> simp at hc
    rcases hc with rfl | rfl | rfl | rfl <;> decide)
  ((C62_permitted_checkable insSort capitals 30 _ []).mp (by decide +kernel))

end U5e
