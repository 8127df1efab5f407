import Verif.Proofs.Script
/-! # The scripts on text do what the generators of Model/Generators.lean do on numbers -/
namespace U5e
open Spec

/-! ## Lines -/

theorem rowText_fields {line : Str} {r : UcdRow} (h : RowText line r) :
    (perlSplit 59 line).getD 0 [] = hex4 r.cp ∧ (perlSplit 59 line).getD 3 [] = dec r.ccc ∧
      DecompText r ((perlSplit 59 line).getD 5 []) := by
  obtain ⟨name, category, bidi, decomp, rest, h1, h2, h3, h4, h5, rfl⟩ := h
  have hd : 59 ∉ dec r.ccc := fun hc => by have := dec_digit _ _ hc; omega
  have he : splitOn 59 (hex4 r.cp ++ [59] ++ name ++ [59] ++ category ++ [59] ++ dec r.ccc ++ [59] ++ bidi ++ [59] ++
      decomp ++ [59] ++ rest) = hex4 r.cp :: name :: category :: dec r.ccc :: bidi :: decomp :: splitOn 59 rest := by
    simp only [List.append_assoc, List.cons_append, List.nil_append]
    rw [splitOn_cons (c := 59) (not_isHex_mem (by decide) _), splitOn_cons h1, splitOn_cons h2, splitOn_cons hd,
      splitOn_cons h3, splitOn_cons h4]
  rw [perlSplit, dropTrailing_getD, dropTrailing_getD, dropTrailing_getD, he]
  exact ⟨rfl, rfl, h5⟩

theorem entriesText_cons (x : Nat) (xs : List Nat) : ∃ t, entriesText (x :: xs) = hex4 x ++ t := by
  rw [entriesText]
  cases xs with
  | nil => exact ⟨[], by simp [join]⟩
  | cons y ys => exact ⟨_, by rw [List.map_cons, List.map_cons, join, List.append_assoc]⟩

theorem entriesText_ne_nil {l : List Nat} (h : l ≠ []) : entriesText l ≠ [] := by
  cases l with
  | nil => exact absurd rfl h
  | cons x xs =>
    obtain ⟨t, ht⟩ := entriesText_cons x xs
    rw [ht]
    simp [hex4_ne_nil]

theorem entriesText_length {l : List Nat} (h : l ≠ []) : 4 ≤ (entriesText l).length := by
  cases l with
  | nil => exact absurd rfl h
  | cons x xs =>
    obtain ⟨t, ht⟩ := entriesText_cons x xs
    rw [ht, List.length_append]
    have := hex4_length x
    omega

theorem entriesText_head {l : List Nat} (h : l ≠ []) : isHex ((entriesText l).headD 0) = true := by
  cases l with
  | nil => exact absurd rfl h
  | cons x xs =>
    obtain ⟨t, ht⟩ := entriesText_cons x xs
    rw [ht]
    cases hx : hex4 x with
    | nil => exact absurd hx (hex4_ne_nil x)
    | cons c cs =>
      have := hex4_isHex x c (by rw [hx]; simp)
      simpa using this

theorem entriesText_mem {l : List Nat} : ∀ c ∈ entriesText l, isHex c = true ∨ c = 32 := by
  rw [entriesText]
  induction l with
  | nil => simp [join]
  | cons x xs ih =>
    cases xs with
    | nil => intro c hc; simp only [List.map_cons, List.map_nil, join] at hc; exact .inl (hex4_isHex x c hc)
    | cons y ys =>
      intro c hc
      rw [List.map_cons, List.map_cons, join, List.append_assoc, List.mem_append, List.mem_append] at hc
      rcases hc with hc | hc | hc
      · exact .inl (hex4_isHex x c hc)
      · exact .inr (by simpa using hc)
      · exact ih c hc

theorem isSpace_of_isHex {c : Nat} (h : isHex c = true) : isSpace c = false := by
  rw [isHex, hexDigit?] at h
  split at h
  · simp [isSpace]; omega
  · split at h
    · simp [isSpace]; omega
    · split at h
      · simp [isSpace]; omega
      · simp at h

/-- Text without two adjacent spaces is not changed. -/
theorem squeeze_hex {s : Str} (hs : ∀ c ∈ s, isHex c = true) (t : Str) : squeeze (s ++ t) = s ++ squeeze t := by
  induction s with
  | nil => rfl
  | cons c s ih =>
    rw [List.cons_append, squeeze, isSpace_of_isHex (hs c (by simp)), ih (fun x hx => hs x (by simp [hx]))]
    simp

theorem squeeze_entries (l : List Nat) : squeeze (entriesText l) = entriesText l := by
  induction l with
  | nil => rfl
  | cons x xs ih =>
    cases xs with
    | nil =>
      have := squeeze_hex (hex4_isHex x) []
      simpa [entriesText, join, squeeze] using this
    | cons y ys =>
      have he : entriesText (x :: y :: ys) = hex4 x ++ (32 :: entriesText (y :: ys)) := by
        simp [entriesText, join]
      rw [he, squeeze_hex (hex4_isHex x)]
      congr 1
      have hh := entriesText_head (l := y :: ys) (by simp)
      rw [squeeze, if_pos (by decide), isSpace_of_isHex hh, ih]
      simp

theorem splitSpaces_entries {l : List Nat} (h : l ≠ []) : splitSpaces (entriesText l) = l.map hex4 := by
  rw [splitSpaces, squeeze_entries, entriesText]
  refine perlSplit_join (by simpa using h) ?_ ?_
  · intro w hw
    obtain ⟨n, _, rfl⟩ := List.mem_map.mp hw
    exact not_isHex_mem (by decide) n
  · intro w hw
    obtain ⟨n, _, rfl⟩ := List.mem_map.mp hw
    exact hex4_ne_nil n

theorem perlTrue_entries (l : List Nat) : perlTrue (entriesText l) = !l.isEmpty := by
  cases l with
  | nil => rfl
  | cons x xs =>
    have h1 := entriesText_ne_nil (l := x :: xs) (by simp)
    have h2 : entriesText (x :: xs) ≠ [48] := by
      intro e
      have := entriesText_length (l := x :: xs) (by simp)
      rw [e] at this; simp at this
    simp [perlTrue, h1, h2]

theorem entries_not_compat (l : List Nat) : compatPrefix.isPrefixOf (entriesText l) = false := by
  rw [Bool.eq_false_iff]
  intro h
  rw [List.isPrefixOf_iff_prefix] at h
  obtain ⟨t, ht⟩ := h
  have := entriesText_mem (l := l) 60 (by rw [← ht]; simp [compatPrefix])
  revert this; decide

theorem entries_head_ne (l : List Nat) : (entriesText l).headD 0 ≠ 60 := by
  cases l with
  | nil => simp [entriesText, join]
  | cons x xs =>
    have := entriesText_head (l := x :: xs) (by simp)
    intro e; rw [e] at this; revert this; decide

/-! ## What the reading loops make of a decomposition field -/

/-- The branches of the reading loops of the decomposition generators. -/
theorem decField {r : UcdRow} {s : Str} (h : DecompText r s) (compat : Bool) (d : Hash Str (List Str)) (k : Str) :
    (if perlTrue s then
      let decomposition := if compat then stripCompat s else s
      if decomposition.headD 0 = 60 then d else d.set k (splitSpaces decomposition)
    else d) =
    (if r.decomp = [] then d
    else if r.tag = 0 ∨ (compat = true ∧ r.tag = 1) then d.set k (r.decomp.map hex4)
    else d) := by
  cases h with
  | canonical ht =>
    rw [perlTrue_entries]
    by_cases hd : r.decomp = []
    · simp [hd]
    · have h1 : (!r.decomp.isEmpty) = true := by simp [hd]
      have h2 : (if compat = true then stripCompat (entriesText r.decomp) else entriesText r.decomp) =
          entriesText r.decomp := by
        simp [stripCompat, entries_not_compat]
      simp only [h1, if_true, h2, if_neg (entries_head_ne r.decomp), if_neg hd, ht, true_or, splitSpaces_entries hd]
  | compat ht hd =>
    have h1 : perlTrue (compatPrefix ++ entriesText r.decomp) = true := by simp [perlTrue, compatPrefix]
    have hp : compatPrefix.isPrefixOf (compatPrefix ++ entriesText r.decomp) = true := by
      rw [List.isPrefixOf_iff_prefix]; exact List.prefix_append _ _
    have h2 : stripCompat (compatPrefix ++ entriesText r.decomp) = entriesText r.decomp := by
      rw [stripCompat, if_pos hp, List.drop_left]
    have h3 : (compatPrefix ++ entriesText r.decomp).headD 0 = 60 := rfl
    cases compat with
    | true =>
      simp only [h1, if_true, h2, if_neg (entries_head_ne r.decomp), if_neg hd, ht, and_self, or_true,
        splitSpaces_entries hd]
    | false =>
      simp only [h1, if_true, Bool.false_eq_true, if_false, if_pos h3]
      simp [ht]
  | @other t ht hd h62 hne =>
    have h1 : perlTrue ([60] ++ t ++ [62, 32] ++ entriesText r.decomp) = true := by simp [perlTrue]
    have hp : compatPrefix.isPrefixOf ([60] ++ t ++ [62, 32] ++ entriesText r.decomp) = false := by
      rw [Bool.eq_false_iff]
      intro hp
      rw [List.isPrefixOf_iff_prefix] at hp
      obtain ⟨u, hu⟩ := hp
      have := congrArg (splitOn 62) hu
      have e1 : compatPrefix ++ u = [60, 99, 111, 109, 112, 97, 116] ++ 62 :: (32 :: u) := by simp [compatPrefix]
      have e2 : [60] ++ t ++ [62, 32] ++ entriesText r.decomp = (60 :: t) ++ 62 :: (32 :: entriesText r.decomp) := by
        simp
      rw [e1, e2, splitOn_cons (by decide), splitOn_cons (by simp [h62])] at this
      simp only [List.cons.injEq] at this
      exact hne this.1.2.symm
    have h3 : ([60] ++ t ++ [62, 32] ++ entriesText r.decomp).headD 0 = 60 := rfl
    have h2 : stripCompat ([60] ++ t ++ [62, 32] ++ entriesText r.decomp) =
        [60] ++ t ++ [62, 32] ++ entriesText r.decomp := by rw [stripCompat, hp]; simp
    have h4 : (if compat = true then stripCompat ([60] ++ t ++ [62, 32] ++ entriesText r.decomp) else
        [60] ++ t ++ [62, 32] ++ entriesText r.decomp) = [60] ++ t ++ [62, 32] ++ entriesText r.decomp := by
      rw [h2]; simp
    simp only [h1, if_true, h4, if_pos h3]
    simp [ht]

/-! ## Hashes with strings against hashes with numbers -/

/-- The same hash, once with the codepoints as strings and once as numbers; `f` prints values. -/
structure HashSim {α β : Type} (f : α → β) (ds : Hash Str β) (dn : Hash Nat α) : Prop where
  eq : ∀ n, ds (hex4 n) = (dn n).map f
  keys : ∀ s, ds s ≠ none → ∃ n, s = hex4 n

theorem HashSim.empty {α β : Type} (f : α → β) : HashSim f (fun _ => none) (fun _ => none) :=
  ⟨fun _ => rfl, fun _ h => absurd rfl h⟩

theorem HashSim.set {α β : Type} {f : α → β} {ds : Hash Str β} {dn : Hash Nat α} (h : HashSim f ds dn) (k : Nat)
    (v : α) : HashSim f (ds.set (hex4 k) (f v)) (dn.set k v) where
  eq n := by
    rw [Hash.set, Hash.set]
    by_cases e : n = k
    · simp [e]
    · rw [if_neg e, if_neg (fun he => e (hex4_inj he))]; exact h.eq n
  keys s hs := by
    rw [Hash.set] at hs
    split at hs
    · next e => exact ⟨k, e⟩
    · exact h.keys s hs

theorem hex4_hex {s : Str} {n : Nat} (h : s = hex4 n) : hex4 (hex s) = s := by rw [h, hex_hex4]

theorem HashSim.isKeys {α β : Type} {f : α → β} {ds : Hash Str β} {dn : Hash Nat α} (h : HashSim f ds dn)
    {ks : List Str} (hk : IsKeys ds ks) :
    IsKeys dn (ks.map hex) ∧ (ks.map hex).map hex4 = ks := by
  have hb : ∀ s ∈ ks, hex4 (hex s) = s := fun s hs => by
    obtain ⟨n, hn⟩ := h.keys s ((hk.2 s).mp hs)
    exact hex4_hex hn
  refine ⟨⟨?_, ?_⟩, ?_⟩
  · rw [List.Nodup, List.pairwise_map]
    refine List.Pairwise.imp_of_mem ?_ hk.1
    intro a b ha hb' hab e
    exact hab (by rw [← hb a ha, e, hb b hb'])
  · intro n
    rw [List.mem_map]
    constructor
    · rintro ⟨s, hs, rfl⟩
      have := (hk.2 s).mp hs
      rw [← hb s hs, h.eq] at this
      intro e; rw [e] at this; exact this rfl
    · intro hn
      refine ⟨hex4 n, (hk.2 _).mpr ?_, hex_hex4 n⟩
      rw [h.eq]
      simpa using hn
  · rw [List.map_map]
    conv => rhs; rw [← List.map_id ks]
    exact List.map_congr_left fun s hs => by simpa using hb s hs

theorem foldl_sim {σ τ : Type} {R : σ → τ → Prop} {f : σ → Str → σ} {g : τ → UcdRow → τ} {file : Str}
    {rs : List UcdRow} (hf : FileText file rs)
    (hstep : ∀ s t line r, R s t → RowText line r → r ∈ rs → R (f s line) (g t r)) (s : σ) (t : τ) (h0 : R s t) :
    R ((lines file).foldl f s) (rs.foldl g t) := by
  induction hf generalizing s t with
  | nil => exact h0
  | @cons l r file rs hr hl _ ih =>
    rw [List.append_assoc, List.singleton_append, lines_cons hl]
    exact ih (fun s t line r' h1 h2 h3 => hstep s t line r' h1 h2 (List.mem_cons_of_mem _ h3)) _ _
      (hstep _ _ _ _ h0 hr (List.mem_cons_self ..))

theorem readCccT_sim {file : Str} {rs : List UcdRow} (hf : FileText file rs) :
    HashSim dec (readCccT file) (readCcc rs) := by
  rw [readCccT, readCcc]
  refine foldl_sim (R := HashSim dec) hf ?_ _ _ (.empty _)
  intro s t line r hR hr _
  obtain ⟨h0, h3, _⟩ := rowText_fields hr
  simp only [h0, h3, perlTrue_dec]
  by_cases hc : r.ccc = 0
  · simpa [hc] using hR
  · simpa [hc] using hR.set r.cp r.ccc

theorem readDecT_sim (compat : Bool) {file : Str} {rs : List UcdRow} (hf : FileText file rs) :
    HashSim (List.map hex4) (readDecT compat file) (readDec compat rs) := by
  rw [readDecT, readDec]
  refine foldl_sim (R := HashSim (List.map hex4)) hf ?_ _ _ (.empty _)
  intro s t line r hR hr _
  obtain ⟨h0, _, h5⟩ := rowText_fields hr
  simp only [h0]
  have := decField h5 compat s (hex4 r.cp)
  simp only at this
  rw [this]
  by_cases hd : r.decomp = []
  · simpa [hd] using hR
  · rw [if_neg hd, if_neg hd]
    split
    · exact hR.set r.cp r.decomp
    · exact hR

theorem readDec_ne_nil (compat : Bool) (rs : List UcdRow) (n : Nat) (m : List Nat)
    (h : readDec compat rs n = some m) : m ≠ [] := by
  rw [readDec] at h
  have : ∀ (d : Hash Nat (List Nat)), (∀ n m, d n = some m → m ≠ []) → ∀ n m,
      rs.foldl (fun d r => if r.decomp = [] then d
        else if r.tag = 0 ∨ (compat = true ∧ r.tag = 1) then d.set r.cp r.decomp else d) d n = some m → m ≠ [] := by
    clear h
    induction rs with
    | nil => intro d hd; exact hd
    | cons r rs ih =>
      intro d hd
      rw [List.foldl_cons]
      refine ih _ ?_
      intro n m hm
      split at hm
      · exact hd n m hm
      · next hne =>
        split at hm
        · rw [Hash.set] at hm
          split at hm
          · rw [← Option.some.inj hm]; exact hne
          · exact hd n m hm
        · exact hd n m hm
  exact this _ (by simp) n m h

/-- One substitution round on strings and on numbers. -/
theorem substPass_sim {ds : Hash Str (List Str)} {dn : Hash Nat (List Nat)} (h : HashSim (List.map hex4) ds dn)
    (hne : ∀ n m, dn n = some m → m ≠ []) (ks : List Nat) (hks : ∀ k ∈ ks, dn k ≠ none) (c : Bool) :
    HashSim (List.map hex4) (substPass ds (ks.map hex4) c).1 (substPass dn ks c).1 ∧
      (substPass ds (ks.map hex4) c).2 = (substPass dn ks c).2 ∧
      (∀ n m, (substPass dn ks c).1 n = some m → m ≠ []) ∧
      (∀ n, (substPass dn ks c).1 n = none ↔ dn n = none) := by
  induction ks generalizing ds dn c with
  | nil => exact ⟨h, rfl, hne, fun _ => Iff.rfl⟩
  | cons k ks ih =>
    cases hk : dn k with
    | none => exact absurd hk (hks k (by simp))
    | some m =>
      have hs : ds (hex4 k) = some (m.map hex4) := by rw [h.eq, hk]; rfl
      rw [List.map_cons, substPass, substPass, hk, hs]
      simp only [Option.getD_some]
      have e1 : (m.map hex4).flatMap (fun x => (ds x).getD [x]) = (m.flatMap (fun x => (dn x).getD [x])).map hex4 := by
        rw [List.flatMap_map, List.map_flatMap]
        congr 1
        funext x
        simp only [h.eq]
        cases dn x <;> rfl
      have e2 : (m.map hex4).any (fun x => (ds x).isSome) = m.any (fun x => (dn x).isSome) := by
        rw [List.any_map]
        congr 1
        funext x
        simp [h.eq]
      rw [e1, e2]
      have hnn : (m.flatMap (fun x => (dn x).getD [x])) ≠ [] := by
        have hm := hne k m hk
        cases m with
        | nil => exact absurd rfl hm
        | cons y ys =>
          rw [List.flatMap_cons]
          intro e
          rw [List.append_eq_nil_iff] at e
          have e := e.1
          cases hy : dn y with
          | none => simp [hy] at e
          | some l => rw [hy] at e; exact hne y l hy e
      have := ih (h.set k (m.flatMap (fun x => (dn x).getD [x]))) (by
            intro n m' hm'
            rw [Hash.set] at hm'
            split at hm'
            · rw [← Option.some.inj hm']; exact hnn
            · exact hne n m' hm') (by
            intro x hx
            rw [Hash.set]
            split
            · simp
            · exact hks x (by simp [hx])) (c || m.any (fun x => (dn x).isSome))
      refine ⟨this.1, this.2.1, this.2.2.1, fun n => (this.2.2.2 n).trans ?_⟩
      rw [Hash.set]
      split
      · next e => rw [e, hk]; simp
      · rfl

theorem substLoop_sim (orders : Nat → List Str) (fuel : Nat) : ∀ (n : Nat) {ds : Hash Str (List Str)}
    {dn : Hash Nat (List Nat)}, HashSim (List.map hex4) ds dn → (∀ n m, dn n = some m → m ≠ []) →
    (∀ i, ((orders i).map hex).map hex4 = orders i ∧ ∀ k ∈ (orders i).map hex, dn k ≠ none) →
    (substLoop orders fuel n ds = none ∧ substLoop (fun i => (orders i).map hex) fuel n dn = none) ∨
    ∃ ds' dn', substLoop orders fuel n ds = some ds' ∧ substLoop (fun i => (orders i).map hex) fuel n dn = some dn' ∧
      HashSim (List.map hex4) ds' dn' ∧ (∀ n m, dn' n = some m → m ≠ []) ∧ ∀ n, dn' n = none ↔ dn n = none := by
  induction fuel with
  | zero => intro n ds dn _ _ _; exact .inl ⟨rfl, rfl⟩
  | succ fuel ih =>
    intro n ds dn h hne ho
    have hp := substPass_sim h hne ((orders n).map hex) (ho n).2 false
    rw [(ho n).1] at hp
    rw [substLoop, substLoop]
    cases hc : (substPass dn ((orders n).map hex) false).2 with
    | false =>
      rw [hc] at hp
      refine .inr ⟨_, _, ?_, ?_, hp.1, hp.2.2.1, hp.2.2.2⟩
      · simp [hp.2.1]
      · simp [hc]
    | true =>
      rw [hc] at hp
      simp only [hp.2.1, hc, if_true]
      rcases ih (n + 1) hp.1 hp.2.2.1 (fun i => ⟨(ho i).1, fun k hk => by
        rw [Ne, hp.2.2.2 k]; exact (ho i).2 k hk⟩) with h' | ⟨ds', dn', h1, h2, h3, h4, h5⟩
      · exact .inl h'
      · exact .inr ⟨ds', dn', h1, h2, h3, h4, fun k => (h5 k).trans (hp.2.2.2 k)⟩

/-! ## The scripts -/

theorem sort_map (ks : List Str) :
    (ks.mergeSort (fun a b => decide (hex a ≤ hex b))).map hex = (ks.map hex).mergeSort (fun a b => decide (a ≤ b)) :=
  List.map_mergeSort (fun _ _ _ _ => rfl)

theorem sorted_hex4 {ks : List Str} (h : (ks.map hex).map hex4 = ks) :
    ks.mergeSort (fun a b => decide (hex a ≤ hex b)) =
      ((ks.map hex).mergeSort (fun a b => decide (a ≤ b))).map hex4 := by
  rw [← sort_map, List.map_map]
  conv => lhs; rw [← List.map_id (ks.mergeSort _)]
  refine List.map_congr_left fun s hs => ?_
  have hs : s ∈ ks := (List.mergeSort_perm ks _).mem_iff.mp hs
  have : ∀ s ∈ ks, s = hex4 (hex s) := by
    intro s hs
    rw [← h] at hs
    obtain ⟨n, _, rfl⟩ := List.mem_map.mp hs
    rw [hex_hex4]
  exact this s hs

/-- canonical_combining_class_data.pl on text. -/
theorem cccScript_eq {file : Str} {rs : List UcdRow} (hf : FileText file rs) {ks : List Str}
    (hk : IsKeys (readCccT file) ks) :
    IsKeys (readCcc rs) (ks.map hex) ∧ cccScript ks file = headerText (genCcc (ks.map hex) rs) := by
  have hs := readCccT_sim hf
  obtain ⟨hk', hb⟩ := hs.isKeys hk
  refine ⟨hk', ?_⟩
  simp only [cccScript, genCcc, headerText, sorted_hex4 hb, List.map_map]
  congr 1
  refine List.map_congr_left fun n hn => ?_
  have hn : n ∈ ks.map hex := (List.mergeSort_perm _ _).mem_iff.mp hn
  have := (hk'.2 n).mp hn
  cases hd : readCcc rs n with
  | none => exact absurd hd this
  | some c =>
    simp [hs.eq, hd, rowText, join, hex_hex4, openBrace, commaSpace, closeBrace]

theorem join_append_single (sep : Str) (l : List Str) (hl : l ≠ []) (x : Str) :
    join sep (l ++ [x]) = join sep l ++ sep ++ x := by
  induction l with
  | nil => exact absurd rfl hl
  | cons a l ih =>
    cases l with
    | nil => simp [join]
    | cons b l =>
      have := ih (by simp)
      rw [List.cons_append, List.cons_append, join, ← List.cons_append, this, join]
      simp

/-- The two decomposition generators on text. -/
theorem decScript_eq (compat : Bool) {file : Str} {rs : List UcdRow} (hf : FileText file rs)
    {orders : Nat → List Str} (ho : ∀ n, IsKeys (readDecT compat file) (orders n)) {ks : List Str}
    (hk : IsKeys (readDecT compat file) ks) (fuel : Nat) :
    (∀ n, IsKeys (readDec compat rs) ((orders n).map hex)) ∧ IsKeys (readDec compat rs) (ks.map hex) ∧
    decScript compat orders ks fuel file =
      (genDec compat (fun n => (orders n).map hex) (ks.map hex) fuel rs).map headerText := by
  have hs := readDecT_sim compat hf
  obtain ⟨hk', hb⟩ := hs.isKeys hk
  have ho' := fun n => (hs.isKeys (ho n)).1
  refine ⟨ho', hk', ?_⟩
  rw [decScript, genDec]
  rcases substLoop_sim orders fuel 0 hs (readDec_ne_nil compat rs)
      (fun i => ⟨(hs.isKeys (ho i)).2, fun k hk => ((ho' i).2 k).mp hk⟩) with ⟨h1, h2⟩ | ⟨ds, dn, h1, h2, h3, h4, h5⟩
  · rw [h1, h2]; rfl
  · rw [h1, h2]
    simp only [Option.map_some, headerText, sorted_hex4 hb, List.map_map]
    congr 2
    refine List.map_congr_left fun n hn => ?_
    simp only [Function.comp_apply, h3.eq, hex_hex4]
    cases hd : dn n with
    | none =>
      have hn : n ∈ ks.map hex := (List.mergeSort_perm _ _).mem_iff.mp hn
      exact absurd ((h5 n).mp hd) ((hk'.2 n).mp hn)
    | some m =>
      have hm := h4 n m hd
      have hm' : m.map dec ≠ [] := by simpa using hm
      have e0 : dec 0 = [48] := by rw [dec]; rfl
      have e1 : (m.map hex4).map (fun x => dec (hex x)) = m.map dec := by
        rw [List.map_map]
        exact List.map_congr_left fun x _ => by simp [hex_hex4]
      simp only [Option.map_some, Option.getD_some, e1, rowText, List.map_cons, List.map_append, List.map_nil, e0]
      obtain ⟨a, l, ha⟩ : ∃ a l, m.map dec = a :: l := by
        cases hml : m.map dec with
        | nil => exact absurd hml hm'
        | cons a l => exact ⟨a, l, rfl⟩
      have e2 := join_append_single [44, 32] (dec n :: m.map dec) (by simp) [48]
      rw [List.cons_append] at e2
      rw [e2, ha, join, openBrace, commaSpace, commaZeroClose]
      simp

end U5e
