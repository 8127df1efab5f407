import Verif.Model.ViewThrow
import Verif.Spec.ViewThrow
import Verif.Properties.Throw
import Verif.Properties.Views
/-!
# C76: exceptions at any point of a program over strings of both encodings and views
-/
namespace U5e
open Spec

/-- What `append_from_utf32ne` of an encoding does when allocations fail. -/
structure KRefinesX (k : Kind) (app : AppendXFn (List α)) (rep : List Nat → List α) : Prop where
  append : ∀ a b, rep (a ++ b) = rep a ++ rep b
  nil : rep [] = []
  zero : k.appending.written 0 = 0
  appendCps : ∀ (out : List α) (cs : List Nat) (r : Nat), (∀ c ∈ cs, k.Holds c) →
    app out (ints cs) r = .ok (costed (k.appending.calls cs) () (out ++ rep cs)
      (out ++ rep (cs.take (k.appending.written r))) r)

theorem krefines8X : KRefinesX .utf8 append8X encodeText where
  append := refines8.append
  nil := refines8.nil
  zero := rfl
  appendCps := refines8X.appendCps

theorem krefines32X : KRefinesX .utf32 append32X (fun cs => ints cs) where
  append := refines32.append
  nil := refines32.nil
  zero := rfl
  appendCps out cs r _ := by rw [append32X, appendCall_eq]; simp [Kind.appending, utf32neAppending]

theorem editX_ret (k : Kind) (cs cs' : List Nat) (a : γ) (r : Nat)
    (f : ∀ {α : Type}, AppendXFn (List α) → List α → Res (Call γ (List α)))
    (h : ∀ {α : Type} (append : AppendXFn (List α)) (rep : List Nat → List α), KRefinesX k append rep →
      f append (rep cs) = .ok (.ret a (rep cs') r)) :
    (Spec.stored k cs).editX f = .ok (.ret a (Spec.stored k cs') r) := by
  cases k
  · simp only [Spec.stored, Text.editX, h append8X encodeText krefines8X, Res.bind_ok, Res.pure_eq]
  · simp only [Spec.stored, Text.editX, h append32X (fun cs => ints cs) krefines32X, Res.bind_ok, Res.pure_eq]

theorem editX_threw (k : Kind) (cs : List Nat) (Q : List Nat → Prop)
    (f : ∀ {α : Type}, AppendXFn (List α) → List α → Res (Call γ (List α)))
    (h : ∀ {α : Type} (append : AppendXFn (List α)) (rep : List Nat → List α), KRefinesX k append rep →
      ∃ cs', Q cs' ∧ f append (rep cs) = .ok (.threw (rep cs'))) :
    ∃ cs', Q cs' ∧ (Spec.stored k cs).editX f = .ok (.threw (Spec.stored k cs')) := by
  cases k
  · obtain ⟨cs', hq, h⟩ := h append8X encodeText krefines8X
    exact ⟨cs', hq, by simp only [Spec.stored, Text.editX, h, Res.bind_ok, Res.pure_eq]⟩
  · obtain ⟨cs', hq, h⟩ := h append32X (fun cs => ints cs) krefines32X
    exact ⟨cs', hq, by simp only [Spec.stored, Text.editX, h, Res.bind_ok, Res.pure_eq]⟩

theorem viewStepX_refines (τ : Nat → Kind) {sort : SortFn} (hs : ConformingSort sort) (σ : Nat → List Nat)
    (hσ : Small σ) (op : VOp) (ha : (libraryData sort).Permitted τ σ op) (σ1 : Nat → List Nat) (o : Obs)
    (hid : (libraryData sort).IdealV σ op σ1 o) :
    ∃ N K, (libraryData sort).NeedsV τ σ op K ∧ ∀ fuel, N ≤ fuel → ∀ k,
      (K ≤ k → viewStepX sort fuel (memory τ σ) k op = .ok (.ret o (memory τ σ1) (k - K))) ∧
      (k < K → ∃ σ', (libraryData sort).InterruptedV τ σ op k σ' ∧
        viewStepX sort fuel (memory τ σ) k op = .ok (.threw (memory τ σ'))) := by
  obtain ⟨_, N, hN⟩ := viewStep_refines τ hs σ hσ op ha σ1 o hid
  have once : (libraryData sort).NeedsV τ σ op 1 → (libraryData sort).InterruptedV τ σ op 0 σ →
      (∀ fuel k, viewStepX sort fuel (memory τ σ) k op =
        (viewStep sort fuel (memory τ σ) op >>= fun r => .ok (appendCall r.2 (memory τ σ) r.1 k))) →
      ∃ N K, (libraryData sort).NeedsV τ σ op K ∧ ∀ fuel, N ≤ fuel → ∀ k,
        (K ≤ k → viewStepX sort fuel (memory τ σ) k op = .ok (.ret o (memory τ σ1) (k - K))) ∧
        (k < K → ∃ σ', (libraryData sort).InterruptedV τ σ op k σ' ∧
          viewStepX sort fuel (memory τ σ) k op = .ok (.threw (memory τ σ'))) := by
    intro hneed hint hst
    refine ⟨N, 1, hneed, fun fuel hf k => ?_⟩
    rw [hst, hN fuel hf]
    simp only [Res.bind_ok, appendCall_eq, costed]
    constructor
    · intro hk; rw [if_pos hk]
    · intro hk
      rw [if_neg (by omega)]
      obtain rfl : k = 0 := by omega
      exact ⟨σ, hint, rfl⟩
  have never : (libraryData sort).NeedsV τ σ op 0 → (∀ fuel k, viewStepX sort fuel (memory τ σ) k op =
        (viewStep sort fuel (memory τ σ) op >>= fun r => .ok (.ret r.2 r.1 k))) →
      ∃ N K, (libraryData sort).NeedsV τ σ op K ∧ ∀ fuel, N ≤ fuel → ∀ k,
        (K ≤ k → viewStepX sort fuel (memory τ σ) k op = .ok (.ret o (memory τ σ1) (k - K))) ∧
        (k < K → ∃ σ', (libraryData sort).InterruptedV τ σ op k σ' ∧
          viewStepX sort fuel (memory τ σ) k op = .ok (.threw (memory τ σ'))) := by
    intro hneed hst
    refine ⟨N, 0, hneed, fun fuel hf k => ?_⟩
    rw [hst, hN fuel hf]
    exact ⟨fun _ => rfl, fun hk => absurd hk (by omega)⟩
  cases op with
  | copy d s => exact once rfl ⟨rfl, rfl⟩ (fun _ _ => rfl)
  | append d src => exact once rfl ⟨rfl, rfl⟩ (fun _ _ => rfl)
  | appendGraphemes d src i j => exact once rfl ⟨rfl, rfl⟩ (fun _ _ => rfl)
  | clear d => exact never rfl (fun _ _ => rfl)
  | write s i c => exact never rfl (fun _ _ => rfl)
  | transform s f => exact never rfl (fun _ _ => rfl)
  | read s => exact never rfl (fun _ _ => rfl)
  | readBack s => exact never rfl (fun _ _ => rfl)
  | readGraphemes s => exact never rfl (fun _ _ => rfl)
  | equal s t => exact never rfl (fun _ _ => rfl)
  | less s t => exact never rfl (fun _ _ => rfl)
  | countIf s p => exact never rfl (fun _ _ => rfl)
  | appendCps d v =>
    obtain ⟨⟨cs, rfl, rfl⟩, rfl⟩ := hid
    obtain ⟨cs', hv, henc⟩ := ha
    obtain rfl := ints_injective hv
    refine ⟨0, _, ⟨cs, rfl, rfl⟩, fun fuel _ k => ?_⟩
    constructor
    · intro hk
      have := editX_ret (τ d) (σ d) (σ d ++ cs) () (k - (τ d).appending.calls cs)
        (fun append m => append m (ints cs) k) (fun append rep R => by
          rw [R.appendCps _ _ _ henc, costed, if_pos hk, R.append])
      simp only [viewStepX, memory, this, Res.bind_ok, Res.pure_eq]
      rw [← memory_upd]
    · intro hk
      obtain ⟨t, rfl, ht⟩ := editX_threw (τ d) (σ d) (fun t => t = σ d ++ cs.take ((τ d).appending.written k))
        (fun append m => append m (ints cs) k) (fun append rep R => ⟨_, rfl, by
          rw [R.appendCps _ _ _ henc, costed, if_neg (by omega), R.append]⟩)
      refine ⟨_, ⟨cs, rfl, hk, rfl⟩, ?_⟩
      simp only [viewStepX, memory, ht, Res.bind_ok, Res.pure_eq]
      rw [← memory_upd]
  | convert d src =>
    obtain ⟨rfl, rfl⟩ := hid
    obtain ⟨hne, hin, hh⟩ := ha
    obtain ⟨I, p, q, pos, hop, hp, hq, h0, hl, S, _⟩ := opened_sim τ hσ hin
    refine ⟨(text σ src).length + 1, _, rfl, fun fuel hf k => ?_⟩
    have hr := readRange_eq S 0 (text σ src).length (Nat.zero_le _) (by simp) fuel (by omega)
    rw [h0, hl, List.drop_zero, List.take_of_length_le (by simp)] at hr
    constructor
    · intro hk
      have := editX_ret (τ d) (σ d) (σ d ++ text σ src) () (k - (τ d).appending.calls (text σ src))
        (fun append m => append m (ints (text σ src)) k) (fun append rep R => by
          rw [R.appendCps _ _ _ hh, costed, if_pos hk, R.append])
      simp only [viewStepX, if_neg hne, hop, hr, Res.bind_ok]
      simp only [memory] at this ⊢
      rw [this]
      simp only [Res.bind_ok, Res.pure_eq]
      rw [← memory_upd]
    · intro hk
      obtain ⟨t, rfl, ht⟩ := editX_threw (τ d) (σ d)
        (fun t => t = σ d ++ (text σ src).take ((τ d).appending.written k))
        (fun append m => append m (ints (text σ src)) k) (fun append rep R => ⟨_, rfl, by
          rw [R.appendCps _ _ _ hh, costed, if_neg (by omega), R.append]⟩)
      refine ⟨_, ⟨hk, rfl⟩, ?_⟩
      simp only [viewStepX, if_neg hne, hop, hr, Res.bind_ok]
      simp only [memory]
      rw [ht]
      simp only [Res.bind_ok, Res.pure_eq]
      rw [← memory_upd]
  | normalize F d src =>
    obtain ⟨gs, ns, hgs, hns, rfl, rfl⟩ := hid
    obtain ⟨hne, hin, hdel, hbound, henc⟩ := ha
    have henc := henc gs hgs
    obtain ⟨gs0, _, hseg, huniq⟩ := graphemes_nat sort (text σ src)
    obtain rfl := huniq _ hgs
    obtain ⟨I, p, q, pos, hop, hp, hq, h0, hl, S, hend⟩ := opened_sim τ hσ hin
    simp only [libraryData_normal] at henc hns
    have hgt : graphemes (ints (text σ src)) = gs.map ints := hseg.symm
    have hbrk : ∀ a, (ints (text σ src)).getLast? = some a →
        isGraphemeBoundary a (Int.ofNat (after σ src)) = true := by
      intro a hlast
      rw [List.getLast?_map] at hlast
      obtain ⟨n, hn, rfl⟩ := Option.map_eq_some_iff.mp hlast
      exact (isGraphemeBoundary_iff _ _).mpr (hdel n hn)
    have htext : F.text sort (ints (text σ src)) = ints ns := by
      rw [hns, Form.text, hgt, List.flatMap_map]
    have hb : (decompose F.map (ints (text σ src))).length ≤ 2147483647 := by
      cases F <;> (simp only [libraryData] at hbound; simp only [Form.map]; omega)
    have hnf : ∀ g, (libraryData sort).normalForm F g = (F.result sort (ints g)).map Int.toNat := by
      intro g; rw [Ucd.normalForm, libraryData_normal]
    have hns2 : gs.flatMap ((libraryData sort).normalForm F) = ns := by
      have := congrArg (List.map Int.toNat) htext
      rw [ints_map_toNat, Form.text, hgt, List.map_flatMap, List.flatMap_map] at this
      rw [← this]
      congr 1; funext g; exact hnf g
    have hcalls : ∀ l : List (List Nat),
        total (fun g => g.length + (τ d).appending.calls ((F.result sort g).map Int.toNat)) (l.map ints) =
          (libraryData sort).formCalls (τ d).appending F l := by
      intro l
      rw [← total_map ints, Ucd.formCalls, total]
      simp only [hnf, List.length_map]
    have hkey : ∀ {α : Type} (append : AppendXFn (List α)) (rep : List Nat → List α), KRefinesX (τ d) append rep →
        ∀ fuel, (text σ src).length + 1 ≤ fuel → ∀ k,
        ((libraryData sort).formCalls (τ d).appending F gs ≤ k →
          normalizeTextX (F.runX sort append) I fuel p q (rep (σ d)) k = .ok (.ret (ns.length : Int)
            (rep (σ d ++ ns)) (k - (libraryData sort).formCalls (τ d).appending F gs))) ∧
        (k < (libraryData sort).formCalls (τ d).appending F gs → ∃ t, (∃ p g q, (libraryData sort).Graphemes (text σ src) (p ++ g :: q) ∧
            (libraryData sort).formCalls (τ d).appending F p ≤ k ∧
            k < (libraryData sort).formCalls (τ d).appending F (p ++ [g]) ∧
            t = σ d ++ p.flatMap ((libraryData sort).normalForm F) ++
              ((libraryData sort).normalForm F g).take ((τ d).appending.written
                (k - (libraryData sort).formCalls (τ d).appending F p - g.length))) ∧
          normalizeTextX (F.runX sort append) I fuel p q (rep (σ d)) k = .ok (.threw (rep t))) := by
      intro α append rep R fuel hf k
      have hrepmap : ∀ l : List (List Nat), (l.map ints).flatMap (fun g => rep ((F.result sort g).map Int.toNat)) =
          rep (l.flatMap ((libraryData sort).normalForm F)) := by
        intro l
        induction l with
        | nil => simp [R.nil]
        | cons g l ih => rw [List.map_cons, List.flatMap_cons, List.flatMap_cons, R.append, ih, hnf]
      have key := F.textX_sim S fuel (by simp; omega) (Int.ofNat (after σ src)) (by simpa [hl] using hend) hbrk hs append
        (fun l => rep (l.map Int.toNat))
        (fun g => (τ d).appending.calls ((F.result sort g).map Int.toNat))
        (fun g k => rep (((F.result sort g).map Int.toNat).take ((τ d).appending.written k)))
        (fun g hg o k => by
          rw [hgt] at hg
          obtain ⟨g', hg', rfl⟩ := List.mem_map.mp hg
          have hg2 : ints ((F.result sort (ints g')).map Int.toNat) = F.result sort (ints g') :=
            ints_toNat' fun x hx => by
              obtain ⟨n, hn, _⟩ := henc g' hg' x hx
              exact ⟨n, hn⟩
          have := R.appendCps o ((F.result sort (ints g')).map Int.toNat) k (fun c hc => by
            obtain ⟨x, hx, rfl⟩ := List.mem_map.mp hc
            obtain ⟨n, rfl, hn⟩ := henc g' hg' x hx
            simpa using hn)
          rw [hg2] at this
          rw [this]) hb (rep (σ d)) k
      rw [h0, List.length_map, hl, hgt] at key
      obtain ⟨k1, k2⟩ := key
      rw [hcalls, hrepmap] at k1
      rw [hcalls] at k2
      constructor
      · intro hk
        rw [k1 hk, htext, hns2, ← R.append, List.length_map]
      · intro hk
        obtain ⟨j, hj, a1, a2, a3⟩ := k2 hk
        rw [List.length_map] at hj
        rw [← List.map_take, hcalls] at a1 a2
        rw [List.take_succ_eq_append_getElem hj] at a2
        rw [← List.map_take, hcalls, hrepmap, List.getElem_map, ← hnf, List.length_map, ← R.append] at a3
        have hg3 : gs = gs.take j ++ gs[j] :: gs.drop (j + 1) := by
          conv => lhs; rw [← List.take_append_drop j gs]
          rw [List.drop_eq_getElem_cons hj]
        refine ⟨_, ⟨gs.take j, gs[j], gs.drop (j + 1), by rw [← hg3]; exact hgs, a1, a2, rfl⟩, ?_⟩
        rw [a3, R.append _ (List.take _ _)]
        congr 3
        split
        · rw [Nat.sub_eq_zero_of_le (by omega), R.zero, List.take_zero, R.nil]
        · rfl
    refine ⟨(text σ src).length + 1, _, ⟨gs, hgs, rfl⟩, fun fuel hf k => ?_⟩
    constructor
    · intro hk
      have := editX_ret (τ d) (σ d) (σ d ++ ns) (ns.length : Int) (k - (libraryData sort).formCalls (τ d).appending F gs)
        (fun append m => normalizeTextX (F.runX sort append) I fuel p q m k)
        (fun append rep R => (hkey append rep R fuel hf k).1 hk)
      simp only [viewStepX, if_neg hne, hop, Res.bind_ok]
      simp only [memory] at this ⊢
      rw [this]
      simp only [Res.bind_ok, Res.pure_eq]
      rw [← memory_upd]
    · intro hk
      obtain ⟨t, ⟨p', g, q', e1, e2, e3, e4⟩, ht⟩ := editX_threw (τ d) (σ d) _
        (fun append m => normalizeTextX (F.runX sort append) I fuel p q m k)
        (fun append rep R => (hkey append rep R fuel hf k).2 hk)
      refine ⟨put σ d t, ⟨p', g, q', e1, e2, e3, by rw [e4]⟩, ?_⟩
      simp only [viewStepX, if_neg hne, hop, Res.bind_ok]
      simp only [memory] at ht ⊢
      rw [ht]
      simp only [Res.bind_ok, Res.pure_eq]
      rw [← memory_upd]

theorem viewRunX_refines (τ : Nat → Kind) {sort : SortFn} (hs : ConformingSort sort) (ops : List VOp)
    (σ : Nat → List Nat) (hσ : Small σ) (ha : (libraryData sort).PermittedRun τ σ ops) (σ' : Nat → List Nat)
    (os : List Obs) (hid : (libraryData sort).IdealRunV σ ops σ' os) :
    ∃ N K, (libraryData sort).NeedsRunV τ σ ops K ∧ ∀ fuel, N ≤ fuel → ∀ k,
      (K ≤ k → viewRunX sort fuel (memory τ σ) k ops = .ok (memory τ σ', os, false)) ∧
      (k < K → ∃ done op rest σ1 os1 σ2 n, ops = done ++ op :: rest ∧ (libraryData sort).IdealRunV σ done σ1 os1 ∧
        (libraryData sort).NeedsRunV τ σ done n ∧ n ≤ k ∧ (libraryData sort).InterruptedV τ σ1 op (k - n) σ2 ∧
        viewRunX sort fuel (memory τ σ) k ops = .ok (memory τ σ2, os1, true)) := by
  induction hid with
  | nil σ => exact ⟨0, 0, .nil σ, fun fuel _ k => ⟨fun _ => rfl, fun hk => absurd hk (by omega)⟩⟩
  | cons σ σ1 σ2 op ops o os h1 h2 ih =>
    obtain ⟨ha1, ha2⟩ := ha
    obtain ⟨hs1, _⟩ := viewStep_refines τ hs σ hσ op ha1 σ1 o h1
    obtain ⟨N, K, hK, hN⟩ := viewStepX_refines τ hs σ hσ op ha1 σ1 o h1
    obtain ⟨M, L, hL, hM⟩ := ih hs1 (ha2 σ1 o h1)
    refine ⟨max N M, K + L, .cons σ σ1 op ops o K L h1 hK hL, fun fuel hf k => ?_⟩
    obtain ⟨n1, n2⟩ := hN fuel (by omega) k
    obtain ⟨m1, m2⟩ := hM fuel (by omega) (k - K)
    constructor
    · intro hk
      simp only [viewRunX, n1 (by omega), Res.bind_ok, m1 (by omega), Res.pure_eq]
    · intro hk
      by_cases hk2 : K ≤ k
      · obtain ⟨done, op', rest, ρ, os1, ρ2, n, e1, e2, e3, e4, e5, e6⟩ := m2 (by omega)
        refine ⟨op :: done, op', rest, ρ, o :: os1, ρ2, K + n, by rw [e1]; rfl, .cons σ σ1 ρ op done o os1 h1 e2,
          .cons σ σ1 op done o K n h1 hK e3, by omega, by rw [Nat.sub_add_eq]; exact e5, ?_⟩
        simp only [viewRunX, n1 hk2, Res.bind_ok, e6, Res.pure_eq]
      · obtain ⟨σ', i1, i2⟩ := n2 (by omega)
        refine ⟨[], op, ops, σ, [], σ', 0, rfl, .nil σ, .nil σ, by omega, i1, ?_⟩
        simp only [viewRunX, i2, Res.bind_ok, Res.pure_eq]

/-- C76. Let a program over strings of the encodings `τ` be permitted (C64); it needs `K` calls that may throw
(Spec/ViewThrow.lean). Let `k` of them succeed and the next one throw. If `k` is enough the program runs to its end as
it should. Otherwise it runs as it should up to some statement `op` and is interrupted there: everything printed
before is right, and the strings are those the statement started with, except that the string it was appending to has
got the codepoints written so far. Every string is the encoding of whole codepoints, in its own encoding. -/
theorem C76_programs (τ : Nat → Kind) (sort : SortFn) (hs : ConformingSort sort) (ops : List VOp)
    (σ : Nat → List Nat) (hσ : ∀ k, ∀ c ∈ σ k, c < 2 ^ 31) (ha : (libraryData sort).PermittedRun τ σ ops) :
    ∃ σ' os N K, (libraryData sort).IdealRunV σ ops σ' os ∧ (libraryData sort).NeedsRunV τ σ ops K ∧
      ∀ fuel, N ≤ fuel → ∀ k,
      (K ≤ k → viewRunX sort fuel (fun n => Spec.stored (τ n) (σ n)) k ops =
        .ok (fun n => Spec.stored (τ n) (σ' n), os, false)) ∧
      (k < K → ∃ done op rest σ1 os1 σ2 n, ops = done ++ op :: rest ∧ (libraryData sort).IdealRunV σ done σ1 os1 ∧
        (libraryData sort).NeedsRunV τ σ done n ∧ n ≤ k ∧ (libraryData sort).InterruptedV τ σ1 op (k - n) σ2 ∧
        viewRunX sort fuel (fun n => Spec.stored (τ n) (σ n)) k ops =
          .ok (fun n => Spec.stored (τ n) (σ2 n), os1, true)) := by
  obtain ⟨σ', os, _, hid, _⟩ := C64_programs τ sort hs ops σ hσ ha
  obtain ⟨N, K, hK, h⟩ := viewRunX_refines τ hs ops σ hσ ha σ' os hid
  exact ⟨σ', os, N, K, hid, hK, h⟩

/-- `C76_programs` applied to the sample program, with some strings UTF-8 and with all of them utf32ne. -/
example := C76_programs sampleKinds insSort insSort_stable.1 sampleViews sampleStore sampleStore_small
  ((C64_permitted_checkable insSort sampleKinds sampleViews sampleStore).mp (by decide +kernel))

example := C76_programs sampleKinds' insSort insSort_stable.1 sampleViews sampleStore sampleStore_small
  ((C64_permitted_checkable insSort sampleKinds' sampleViews sampleStore).mp (by decide +kernel))

/-- Non-vacuity: every crash point of two conversions of a view: utf32ne to UTF-8 stops after any codepoint, UTF-8 to
utf32ne has done nothing. Strings with even numbers are UTF-8. -/
example : let σ : Nat → List Nat := fun n => if n = 1 then [0x61, 0x20AC, 0x62] else if n = 2 then [0xE9, 0x62] else []
    let octets : Nat → VOp → Option (Text × Bool) := fun k op =>
      match viewRunX insSort 9 (fun n => Spec.stored (sampleKinds n) (σ n)) k [op] with
      | .ok (τ, _, t) => some (match op with | .convert d _ => τ d | _ => .utf8 [], t)
      | _ => none
    (∀ k r t, [(0, [], true), (1, [0x61], true), (2, [0x61, 0xE2, 0x82, 0xAC], false)].find? (fun x => x.1 == k) =
        some (k, r, t) → octets k (.convert 0 (.view 1 0 2)) = some (.utf8 r, t)) ∧
    octets 0 (.convert 3 (.whole 2)) = some (.utf32 [], true) ∧
    octets 1 (.convert 3 (.whole 2)) = some (.utf32 [0xE9, 0x62], false) := by
  refine ⟨?_, rfl, rfl⟩
  intro k r t h
  match k with
  | 0 => simp [List.find?] at h; obtain ⟨rfl, rfl⟩ := h; rfl
  | 1 => simp [List.find?] at h; obtain ⟨rfl, rfl⟩ := h; rfl
  | 2 => simp [List.find?] at h; obtain ⟨rfl, rfl⟩ := h; rfl
  | n + 3 => simp [List.find?] at h

/-- Non-vacuity: the program of C64, interrupted and not. -/
example : (match viewRunX insSort 20 (fun n => Spec.stored (sampleKinds n) (sampleStore n)) 7 sampleViews with
      | .ok (_, os, t) => t && decide (os = sampleViewsOutput.take os.length) && decide (os.length = 3)
      | _ => false) = true ∧
    (match viewRunX insSort 20 (fun n => Spec.stored (sampleKinds n) (sampleStore n)) 100 sampleViews with
      | .ok (_, os, t) => !t && decide (os = sampleViewsOutput)
      | _ => false) = true := by decide +kernel

end U5e
