import Verif.Proofs.OctetsFwd
/-!
# C06, C07 backwards and C63: iterating over arbitrary octets

What the loops `while (it != end) { *it; ++it; }` and `it = end; while (it != begin) { --it; *it; }` read from a
NUL-terminated string whose octets need not be UTF-8.
-/
namespace U5e
open Spec

theorem not_begins_zero {t : List UInt8} : (0 < t.length ∧ ¬ Begins t 0) ↔ ∃ o, t.head? = some o ∧ IsContinuation o := by
  cases t with
  | nil => simp
  | cons a r => simp [Begins]

/-- C06, backwards, exactly: the loop `it = end; while (it != begin) { --it; *it; }` runs into undefined behaviour iff
the text starts with a continuation octet, or some octet that begins a codepoint is 0xFF or claims octets after the
terminator. -/
theorem C06_backward_exact (t : List UInt8) :
    (∃ fuel, walkBack (t ++ [0]) 0 fuel t.length = .ub) ↔
      (∃ o, t.head? = some o ∧ IsContinuation o) ∨
      ∃ s l, t[s]? = some l ∧ ¬ IsContinuation l ∧ (t.length + 1 < s + claimed l ∨ l = 0xFF) := by
  constructor
  · rintro ⟨fuel, h⟩
    refine Classical.byContradiction fun hn => ?_
    rw [not_or] at hn
    have h1 := walkBack_value t (fun o ho hc => hn.1 ⟨o, ho, hc⟩) (fun s ⟨l, hs⟩ => hn.2 ⟨s, l, hs⟩)
      (fuel + (t.length + 1)) t.length 0 (stop_end t) (by omega)
    rw [walkBack_mono _ _ _ _ _ h] at h1
    cases h1
  · intro h
    refine ⟨t.length + 1, walkBack_ub t _ _ 0 (stop_end t) (by omega) ?_⟩
    rcases h with h | ⟨s, l, h1, h2, h3⟩
    · exact .inr (not_begins_zero.mpr h)
    · exact .inl ⟨s, (List.getElem?_eq_some_iff.mp h1).1, l, h1, h2, h3⟩

/-- C07, backwards: the loop always ends, after at most as many rounds as there are octets; only forwards can an
iterator get stuck. -/
theorem C07_backward (t : List UInt8) (fuel : Nat) (hf : t.length < fuel) :
    walkBack (t ++ [0]) 0 fuel t.length ≠ .tmo := by
  by_cases h : (∃ s, s < t.length ∧ Unreadable t s) ∨ (0 < t.length ∧ ¬ Begins t 0)
  · rw [walkBack_ub t fuel _ 0 (stop_end t) hf h]; simp
  · rw [not_or] at h
    rw [walkBack_value t (fun o ho hc => h.2 (not_begins_zero.mpr ⟨o, ho, hc⟩))
      (fun s hs => h.1 ⟨s, by obtain ⟨l, h1, _⟩ := hs; exact (List.getElem?_eq_some_iff.mp h1).1, hs⟩) fuel _ 0
      (stop_end t) hf]
    simp

/-- "A", a lead octet of three without its octets, and "B" with a stray continuation octet: undefined backwards only if
the claimed octets leave the terminator. -/
example : walkBack ([0x41, 0xE2, 0x42, 0x80] ++ [0]) 0 5 4 = .ok [0x42, 0x2080, 0x41] ∧
    walkBack ([0x41, 0xE2] ++ [0]) 0 5 2 = .ub := by decide +kernel

/-- C63, forwards: over any text that is safe and terminates (C06, C07), the loop reads, in order, the value found at
each position of rest whose claimed octets belong to the text, and nothing else. -/
theorem C63_forward (t : List UInt8) (hfirst : ∀ o, t.head? = some o → ¬ IsContinuation o)
    (hff : ∀ s, Rests t s → t[s]? = some 0xFF → t.length < s + 8) (hst : ∀ s, Rests t s → ¬ Stuck t s)
    (fuel : Nat) (hf : t.length < fuel) :
    ∃ ps, Lists ps (Visits t) ∧ walk (t ++ [0]) t.length fuel 0 = .ok (ps.map (valueAt (t ++ [0]))) := by
  cases t with
  | nil =>
    obtain ⟨f, rfl⟩ : ∃ f, fuel = f + 1 := ⟨fuel - 1, by simp at hf; omega⟩
    refine ⟨[], ⟨.nil, fun s => ?_⟩, ?_⟩
    · simp [Visits]
    · have : iterEq [0] 0 0 = .ok true := by decide
      simp [walk, this]
  | cons a r =>
    obtain ⟨ps, h1, h2, h3⟩ := walk_value (a :: r) hfirst hff hst fuel 0 0 a .start rfl (Nat.le_refl _) (by simp)
      (fun k _ _ => by omega) (by omega)
    exact ⟨ps, ⟨h1, fun s => (h2 s).trans ⟨fun h => h.2, fun h => ⟨Nat.zero_le _, h⟩⟩⟩, h3⟩

/-- C63, backwards: over any text the loop is safe on (C06), it reads the value found at each octet that begins a
codepoint, from the last to the first. -/
theorem C63_backward (t : List UInt8) (hfirst : ∀ o, t.head? = some o → ¬ IsContinuation o)
    (hread : ∀ s, ¬ Unreadable t s) (fuel : Nat) (hf : t.length < fuel) :
    ∃ ps, Lists ps (Begins t) ∧ walkBack (t ++ [0]) 0 fuel t.length = .ok (ps.map (valueAt (t ++ [0]))).reverse :=
  ⟨begins t t.length, begins_lists t, walkBack_value t hfirst hread fuel _ 0 (stop_end t) hf⟩

theorem lists_unique {P : Nat → Prop} : ∀ {a b : List Nat}, Lists a P → Lists b P → a = b := by
  have key : ∀ (a b : List Nat), a.Pairwise (· < ·) → b.Pairwise (· < ·) → (∀ x, x ∈ a ↔ x ∈ b) → a = b := by
    intro a
    induction a with
    | nil =>
      intro b _ _ h
      cases b with
      | nil => rfl
      | cons y b => exact absurd ((h y).mpr (by simp)) (by simp)
    | cons x a ih =>
      intro b ha hb h
      cases b with
      | nil => exact absurd ((h x).mp (by simp)) (by simp)
      | cons y b =>
        rw [List.pairwise_cons] at ha hb
        have hxy : x = y := by
          have h1 := (h x).mp (by simp)
          have h2 := (h y).mpr (by simp)
          rw [List.mem_cons] at h1 h2
          rcases h1 with h1 | h1
          · exact h1
          · rcases h2 with h2 | h2
            · exact h2.symm
            · have := hb.1 x h1; have := ha.1 y h2; omega
        subst hxy
        congr 1
        refine ih b ha.2 hb.2 fun z => ?_
        have := h z
        rw [List.mem_cons, List.mem_cons] at this
        constructor
        · intro hz
          rcases this.mp (.inr hz) with rfl | h'
          · have := ha.1 z hz; omega
          · exact h'
        · intro hz
          rcases this.mpr (.inr hz) with rfl | h'
          · have := hb.1 z hz; omega
          · exact h'
  intro a b ha hb
  exact key a b ha.1 hb.1 fun x => (ha.2 x).trans (hb.2 x).symm

theorem begins_mem {t : List UInt8} {k : Nat} (hk : k < t.length) : Begins (t ++ [0]) k ↔ Begins t k := by
  simp only [Begins, List.getElem?_append_left hk]

theorem begins_end (t : List UInt8) : Begins (t ++ [0]) t.length := ⟨0, by simp, by decide⟩

/-- With chained beginnings an increment leads from each beginning to the next one. -/
theorem chained_rests {t : List UInt8} (hfirst : ∀ o, t.head? = some o → ¬ IsContinuation o)
    (hst : ∀ s, Rests t s → ¬ Stuck t s) (hch : Chained t) (s : Nat) : Begins t s → Rests t s := by
  induction s using Nat.strongRecOn with
  | _ s ih =>
    intro hb
    rcases Nat.eq_zero_or_pos s with rfl | hpos
    · exact .start
    · have hlt : s < t.length := by obtain ⟨l, h, _⟩ := hb; exact (List.getElem?_eq_some_iff.mp h).1
      have h0 : Begins t 0 := by
        cases t with
        | nil => simp at hlt
        | cons a r => exact ⟨a, rfl, hfirst a rfl⟩
      rcases last_begins t s with hn | ⟨q, hq, hbq, hgap⟩
      · exact absurd h0 (hn 0 hpos)
      · have hrq := ih q hq hbq
        obtain ⟨l, hl, hlead⟩ := hbq
        have hcont : ∀ k, q < k → k < s → ∃ c, t[k]? = some c ∧ IsContinuation c := fun k k1 k2 => by
          obtain ⟨c, c1, c2⟩ := cont_of_not_begins (by omega) (hgap k k1 k2)
          rw [List.getElem?_append_left (by omega)] at c1
          exact ⟨c, c1, c2⟩
        have hle : s ≤ q + claimed l := Nat.le_of_not_lt fun h => hst q hrq ⟨l, hl, fun k k1 k2 => hcont k k1 (by omega)⟩
        obtain ⟨hroom, hone⟩ := hch q l hl hlead
        obtain ⟨o, ho, hoc⟩ := hb
        refine .step hrq hl hq hle ho hoc fun k k1 k2 => ?_
        have hnb : ¬ Begins (t ++ [0]) k := hone s k hq k1 k2 ((begins_mem hlt).mpr ⟨o, ho, hoc⟩)
        have hkl : k < t.length := Nat.lt_of_le_of_ne (by omega) fun h => hnb (h ▸ begins_end t)
        obtain ⟨c, c1, c2⟩ := cont_of_not_begins hkl fun h => hnb ((begins_mem hkl).mpr h)
        rw [List.getElem?_append_left hkl] at c1
        exact ⟨c, c1, c2⟩

/-- C63: reading a text forwards and backwards gives the same codepoints exactly when its beginnings are chained. So
an ill-formed text can read differently in the two directions although neither is undefined or endless. -/
theorem C63_directions_agree (t : List UInt8) (hfirst : ∀ o, t.head? = some o → ¬ IsContinuation o)
    (hff : ∀ s, Rests t s → t[s]? = some 0xFF → t.length < s + 8) (hst : ∀ s, Rests t s → ¬ Stuck t s)
    (hread : ∀ s, ¬ Unreadable t s) (fuel : Nat) (hf : t.length < fuel) :
    ∃ cs ds, walk (t ++ [0]) t.length fuel 0 = .ok cs ∧ walkBack (t ++ [0]) 0 fuel t.length = .ok ds ∧
      (ds = cs.reverse ↔ Chained t) := by
  obtain ⟨ps, hp, h1⟩ := C63_forward t hfirst hff hst fuel hf
  obtain ⟨qs, hq, h2⟩ := C63_backward t hfirst hread fuel hf
  refine ⟨_, _, h1, h2, ?_⟩
  have hsub : ∀ x, x ∈ ps → x ∈ qs := fun x hx => by
    obtain ⟨hr, l, hl, _⟩ := (hp.2 x).mp hx
    exact (hq.2 x).mpr ⟨l, hl, rests_lead hfirst hr hl⟩
  constructor
  · intro h
    have hlen : qs.length = ps.length := by
      have := congrArg List.length h
      simpa using this
    have hfil : ps = qs.filter fun x => decide (x ∈ ps) :=
      lists_unique (P := fun x => x ∈ ps) ⟨hp.1, fun _ => Iff.rfl⟩
        ⟨hq.1.filter _, fun x => by simp only [List.mem_filter, decide_eq_true_eq]; exact ⟨fun h => h.2, fun h => ⟨hsub x h, h⟩⟩⟩
    have heq : ps = qs := by
      refine List.Sublist.eq_of_length ?_ hlen.symm
      rw [hfil]; exact List.filter_sublist
    have hall : ∀ x, x ∈ qs → x ∈ ps := fun x hx => heq ▸ hx
    intro s l hl hlead
    have hvis : ∀ x, Begins t x → Visits t x := fun x hx => (hp.2 x).mp (hall x ((hq.2 x).mpr hx))
    obtain ⟨hrs, l', hl', hroom⟩ := hvis s ⟨l, hl, hlead⟩
    obtain rfl : l = l' := by rw [hl] at hl'; exact Option.some.inj hl'
    refine ⟨hroom, fun k k' k1 k2 k3 hk hk' => ?_⟩
    have hkl : k < t.length := by omega
    have hrk := (hvis k ((begins_mem hkl).mp hk)).1
    obtain ⟨s', hop, hle⟩ := rests_between k hrk s hrs k1
    obtain ⟨l2, j1, j2⟩ := hop.bound
    rw [hl] at j1; cases j1
    obtain ⟨l3, o, g1, g2, g3, g4, g5, g6⟩ := hop
    rw [hl] at g1; cases g1
    obtain ⟨c, c1, c2⟩ := g6 k' (by omega) k3
    obtain ⟨c', c3, c4⟩ := hk'
    rw [List.getElem?_append_left (by omega), c1] at c3
    cases c3; exact c4 c2
  · intro hch
    have : ps = qs := by
      refine lists_unique hp ⟨hq.1, fun x => (hq.2 x).trans ⟨fun hb => ?_, fun ⟨hr, l, hl, _⟩ => ⟨l, hl, rests_lead hfirst hr hl⟩⟩⟩
      refine ⟨chained_rests hfirst hst hch x hb, ?_⟩
      obtain ⟨l, hl, hlead⟩ := hb
      exact ⟨l, hl, (hch x l hl hlead).1⟩
    rw [this]

/-- The text "A" 0xE2 "BCD" meets the hypotheses of `C63_forward`, `C63_backward` and `C63_directions_agree`. -/
theorem directions_example : let t : List UInt8 := [0x41, 0xE2, 0x42, 0x43, 0x44]
    (∀ o, t.head? = some o → ¬ IsContinuation o) ∧ (∀ s, Rests t s → t[s]? = some 0xFF → t.length < s + 8) ∧
    (∀ s, Rests t s → ¬ Stuck t s) ∧ (∀ s, ¬ Unreadable t s) ∧ ¬ Chained t := by
  intro t
  have hno : ∀ o ∈ t, ¬ IsContinuation o ∧ o ≠ 0xFF := by decide
  refine ⟨by simp [t]; decide, fun s _ h => absurd rfl (hno _ (List.mem_of_getElem? h)).2, ?_, ?_, ?_⟩
  · rintro s _ ⟨l, _, h⟩
    obtain ⟨c, h1, h2⟩ := h (s + 1) (by omega) (by have := claimed_pos l; omega)
    exact (hno c (List.mem_of_getElem? h1)).1 h2
  · rintro s ⟨l, h1, _, h2⟩
    have hs : s < 5 := (List.getElem?_eq_some_iff.mp h1).1
    have key : ∀ s : Fin 5, t.length + 1 < s.val + claimed (t.get s) ∨ t.get s = 0xFF → False := by decide
    have hg : t.get ⟨s, hs⟩ = l := (List.getElem?_eq_some_iff.mp h1).2
    exact key ⟨s, hs⟩ (by rw [hg]; exact h2)
  · intro h
    exact (h 1 0xE2 rfl (by decide)).2 2 3 (by omega) (by omega) (by decide) ⟨0x42, rfl, by decide⟩ ⟨0x43, rfl, by decide⟩

example := C63_forward [0x41, 0xE2, 0x42, 0x43, 0x44] directions_example.1 directions_example.2.1
  directions_example.2.2.1 6 (by decide)

example := C63_backward [0x41, 0xE2, 0x42, 0x43, 0x44] directions_example.1 directions_example.2.2.2.1 6 (by decide)

example := C63_directions_agree [0x41, 0xE2, 0x42, 0x43, 0x44] directions_example.1 directions_example.2.1
  directions_example.2.2.1 directions_example.2.2.2.1 6 (by decide)

/-- An ill-formed text on which nothing is undefined or endless, read differently in the two directions: forwards the
lead octet 0xE2 swallows "BC". -/
theorem C63_directions_differ :
    walk ([0x41, 0xE2, 0x42, 0x43, 0x44] ++ [0]) 5 6 0 = .ok [0x41, 0x2083, 0x44] ∧
    walkBack ([0x41, 0xE2, 0x42, 0x43, 0x44] ++ [0]) 0 6 5 = .ok [0x44, 0x43, 0x42, 0x2083, 0x41] := by decide +kernel

end U5e
