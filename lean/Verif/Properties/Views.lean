import Verif.Proofs.Views
/-!
# C64: programs over strings of both encodings and over views
-/
namespace U5e
open Spec

theorem viewStep_refines (τ : Nat → Kind) {sort : SortFn} (hs : ConformingSort sort) (σ : Nat → List Nat)
    (hσ : Small σ) (op : VOp) (ha : (libraryData sort).Permitted τ σ op) (σ1 : Nat → List Nat) (o : Obs)
    (hid : (libraryData sort).IdealV σ op σ1 o) :
    Small σ1 ∧ ∃ N, ∀ fuel, N ≤ fuel → viewStep sort fuel (memory τ σ) op = .ok (memory τ σ1, o) := by
  have happsmall : ∀ (d : Nat) (cs : List Nat), (∀ c ∈ cs, c < 2 ^ 31) → ∀ c ∈ σ d ++ cs, c < 2 ^ 31 := by
    intro d cs h c hc
    rcases List.mem_append.mp hc with h' | h'
    · exact hσ d c h'
    · exact h c h'
  cases op with
  | copy d s =>
    obtain ⟨rfl, rfl⟩ := hid
    have hk : τ d = τ s := ha
    refine ⟨small_upd hσ d (hσ s), 0, fun fuel _ => ?_⟩
    rw [memory_upd]
    have := editFrom_stored (τ d) (σ d) (σ s) (σ s) (fun _ _ b => .ok b) (fun _ _ _ => rfl)
    simp only [viewStep, memory, ← hk, this, Res.bind_ok, Res.pure_eq]
  | clear d =>
    obtain ⟨rfl, rfl⟩ := hid
    refine ⟨small_upd hσ d (by simp), 0, fun fuel _ => ?_⟩
    rw [memory_upd]
    have := edit_stored (τ d) (σ d) [] Obs.none (fun _ _ => .ok ([], .none)) (fun _ _ R => by rw [R.nil])
    simp only [viewStep, memory, this, Res.bind_ok, Res.pure_eq]
  | append d src =>
    obtain ⟨rfl, rfl⟩ := hid
    obtain ⟨hk, hin⟩ := ha
    obtain ⟨I, p, q, pos, hop, hp, hq, _⟩ := opened_sim τ hσ hin
    refine ⟨small_upd hσ d (happsmall d _ (text_small hσ src)), 0, fun fuel _ => ?_⟩
    rw [memory_upd]
    have := editFrom_stored (τ d) (σ d) (σ src.string) (σ d ++ text σ src)
      (fun E a b => E.appendRange a (b ++ [E.nul]) p q) (fun E rep R => by
        obtain ⟨pos, _, _, hpos, _, _, happ⟩ := R.sim (σ src.string) (hσ _)
        obtain ⟨h1, h2⟩ := lo_hi hin
        have := happ (σ d) src.lo (src.hi σ) h1 h2
        rw [hpos _ (by omega), hpos _ h2, ← R.size, ← R.size, hk, ← hp, ← hq, ← text_eq] at this
        exact this)
    simp only [viewStep, hop, Res.bind_ok, memory, ← hk, this, Res.pure_eq]
  | convert d src =>
    obtain ⟨rfl, rfl⟩ := hid
    obtain ⟨hne, hin, hh⟩ := ha
    obtain ⟨I, p, q, pos, hop, hp, hq, h0, hl, S, _⟩ := opened_sim τ hσ hin
    refine ⟨small_upd hσ d (happsmall d _ (text_small hσ src)), (text σ src).length + 1, fun fuel hf => ?_⟩
    rw [memory_upd]
    have hr := readRange_eq S 0 (text σ src).length (Nat.zero_le _) (by simp) fuel (by omega)
    rw [h0, hl, List.drop_zero, List.take_of_length_le (by simp)] at hr
    have := edit_stored (τ d) (σ d) (σ d ++ text σ src) Obs.none
      (fun E m => do pure (← E.appendCps m (ints (text σ src)), .none)) (fun E rep R => by
        simp only [R.appendCpsK _ _ hh, Res.bind_ok, Res.pure_eq, R.append])
    simp only [viewStep, if_neg hne, hop, hr, Res.bind_ok, memory]
    rw [this]
    simp only [Res.bind_ok, Res.pure_eq]
  | appendCps d v =>
    obtain ⟨⟨cs, hv, rfl⟩, rfl⟩ := hid
    obtain ⟨cs', hv', henc⟩ := ha
    obtain rfl := ints_injective (hv.symm.trans hv')
    refine ⟨small_upd hσ d (happsmall d _ fun c hc => holds_lt (henc c hc)), 0, fun fuel _ => ?_⟩
    rw [memory_upd]
    have := edit_stored (τ d) (σ d) (σ d ++ cs) Obs.none
      (fun E m => do pure (← E.appendCps m (ints cs), .none)) (fun E rep R => by
        simp only [R.appendCpsK _ _ henc, Res.bind_ok, Res.pure_eq, R.append])
    simp only [viewStep, hv, memory]
    rw [this]
    simp only [Res.bind_ok, Res.pure_eq]
  | appendGraphemes d src i j =>
    obtain ⟨⟨gs, hgs, rfl⟩, rfl⟩ := hid
    obtain ⟨hk, hin, gs', hgs', hij, hj, h7⟩ := ha
    obtain ⟨gs0, _, hseg, huniq⟩ := graphemes_nat sort (text σ src)
    obtain rfl := huniq _ hgs
    obtain rfl := huniq _ hgs'
    obtain ⟨I, p, q, pos, hop, hp, hq, h0, hl, S, _⟩ := opened_sim τ hσ hin
    refine ⟨small_upd hσ d (happsmall d _ ?_), (text σ src).length + 1, fun fuel hf => ?_⟩
    · intro c hc
      obtain ⟨g, hg, hcg⟩ := List.mem_flatten.mp hc
      refine text_small hσ src c ?_
      have hfl := congrArg List.flatten hseg
      rw [segments_flatten, ← List.map_flatten] at hfl
      rw [← ints_injective hfl]
      exact List.mem_flatten.mpr ⟨g, List.mem_of_mem_take (List.mem_of_mem_drop hg), hcg⟩
    · have hf' : (ints (text σ src)).length < fuel := by simp; omega
      have hgi := graphemeN_sim S fuel hf' i
      have hgj := graphemeN_sim S fuel hf' j
      have hj2 : j ≤ (segments isGraphemeBoundary (ints (text σ src))).length := by rw [← hseg]; simpa
      have hmono : segStart (ints (text σ src)) i ≤ segStart (ints (text σ src)) j := by
        rcases Nat.lt_or_eq_of_le hij with h | h
        · have := segStart_mono_lt (ints (text σ src)) h hj2; omega
        · rw [h]; exact Nat.le_refl _
      have hle := segStart_le (ints (text σ src)) j
      have hr := readRange_eq S _ _ hmono hle fuel (by omega)
      have ht := take_drop_flatten (gs := segments isGraphemeBoundary (ints (text σ src))) i j hij
      rw [segments_flatten] at ht
      have hbt : ((ints (text σ src)).take (segStart (ints (text σ src)) j)).drop (segStart (ints (text σ src)) i)
          = ints ((gs'.take j).drop i).flatten := by
        rw [segStart, segStart, ht, ← hseg]
        simp [ints, List.map_flatten, List.map_take, List.map_drop]
      rw [hbt] at hr
      rw [List.length_map, h0, hl] at hgi hgj
      obtain ⟨gi, hgi, hwi⟩ : ∃ g, (graphemeBegin I fuel p q >>= incN I fuel i) = .ok g ∧
        g.where_ = pos (segStart (ints (text σ src)) i) := ⟨_, hgi, rfl⟩
      obtain ⟨gj, hgj, hwj⟩ : ∃ g, (graphemeBegin I fuel p q >>= incN I fuel j) = .ok g ∧
        g.where_ = pos (segStart (ints (text σ src)) j) := ⟨_, hgj, rfl⟩
      rw [← hwi, ← hwj] at hr
      rw [memory_upd]
      have := editFrom_stored (τ d) (σ d) (σ src.string) (σ d ++ ((gs'.take j).drop i).flatten)
        (fun E a _ => E.appendGraphemes I fuel a gi gj) (fun E rep R => by
          rw [R.appendGraphemesK I fuel _ _ _ _ hr (fun h8 c hc => by
            obtain ⟨g, hg, hcg⟩ := List.mem_flatten.mp hc
            exact h7 h8 g hg c hcg), R.append])
      simp only [viewStep, hop, Res.bind_ok, hgi, hgj, memory, ← hk]
      rw [this]
      simp only [Res.bind_ok, Res.pure_eq]
  | normalize F d src =>
    obtain ⟨gs, ns, hgs, hns, rfl, rfl⟩ := hid
    obtain ⟨hne, hin, hdel, hbound, henc⟩ := ha
    have henc := henc gs hgs
    obtain ⟨gs0, _, hseg, huniq⟩ := graphemes_nat sort (text σ src)
    obtain rfl := huniq _ hgs
    obtain ⟨I, p, q, pos, hop, hp, hq, h0, hl, S, hend⟩ := opened_sim τ hσ hin
    simp only [libraryData_normal] at henc hns
    have hencN : ∀ c ∈ ns, (τ d).Holds c := by
      intro c hc
      have : (c : Int) ∈ ints ns := List.mem_map_of_mem (f := Int.ofNat) hc
      rw [hns] at this
      obtain ⟨g, hg, hx⟩ := List.mem_flatMap.mp this
      obtain ⟨n, hn, hne⟩ := henc g hg _ hx
      obtain rfl : c = n := by omega
      exact hne
    refine ⟨small_upd hσ d (happsmall d _ fun c hc => holds_lt (hencN c hc)), (text σ src).length + 1, fun fuel hf => ?_⟩
    have hb : (decompose F.map (ints (text σ src))).length ≤ 2147483647 := by
      cases F <;> (simp only [libraryData] at hbound; simp only [Form.map]; omega)
    have hgt : graphemes (ints (text σ src)) = gs.map ints := hseg.symm
    have hbrk : ∀ a, (ints (text σ src)).getLast? = some a →
        isGraphemeBoundary a (Int.ofNat (after σ src)) = true := by
      intro a hlast
      rw [List.getLast?_map] at hlast
      obtain ⟨n, hn, rfl⟩ := Option.map_eq_some_iff.mp hlast
      exact (isGraphemeBoundary_iff _ _).mpr (hdel n hn)
    have htext : F.text sort (ints (text σ src)) = ints ns := by
      rw [hns, Form.text, hgt, List.flatMap_map]
    rw [memory_upd]
    have := edit_stored (τ d) (σ d) (σ d ++ ns) (Obs.number ns.length)
      (fun E m => do
        let (n, t) ← normalizeText (F.run sort E.appendCps) I fuel p q m
        pure (t, .number n)) (fun {α} _ E rep R => by
        have := F.text_sim S fuel (by simp; omega) (Int.ofNat (after σ src)) (by simpa [hl] using hend)
          hbrk hs E.appendCps (fun l => rep (l.map Int.toNat))
          (fun g hg o => by
            rw [hgt] at hg
            obtain ⟨g', hg', rfl⟩ := List.mem_map.mp hg
            have hg2 : ints ((F.result sort (ints g')).map Int.toNat) = F.result sort (ints g') := by
              rw [ints, List.map_map]
              conv => rhs; rw [← List.map_id (F.result sort (ints g'))]
              refine List.map_congr_left fun x hx => ?_
              obtain ⟨n, rfl, _⟩ := henc g' hg' x hx
              simp
            conv => lhs; rw [← hg2]
            refine R.appendCpsK o _ fun c hc => ?_
            obtain ⟨x, hx, rfl⟩ := List.mem_map.mp hc
            obtain ⟨n, rfl, hn⟩ := henc g' hg' x hx
            simpa using hn) hb (rep (σ d))
        have hrep : (graphemes (ints (text σ src))).flatMap (fun g => rep ((F.result sort g).map Int.toNat)) = rep ns := by
          have hn2 : ns = (graphemes (ints (text σ src))).flatMap (fun g => (F.result sort g).map Int.toNat) := by
            have := congrArg (List.map Int.toNat) htext
            rw [Form.text, List.map_flatMap] at this
            rw [this]; simp [ints, List.map_map, Function.comp_def]
          rw [hn2]
          generalize graphemes (ints (text σ src)) = l
          induction l with
          | nil => simp [R.nil]
          | cons a l ih => simp only [List.flatMap_cons, R.append, ih]
        rw [htext, hrep, List.length_map, List.length_map, h0, hl] at this
        simp only [this, Res.bind_ok, Res.pure_eq, R.append])
    simp only [viewStep, if_neg hne, hop, Res.bind_ok, memory]
    rw [this]
    simp only [Res.bind_ok, Res.pure_eq]
  | write s i c =>
    obtain ⟨⟨n, hc, rfl⟩, rfl⟩ := hid
    obtain ⟨n', old, hc', hold, henc, hsz⟩ := ha
    obtain rfl : n = n' := by omega
    have hi : i < (σ s).length := (List.getElem?_eq_some_iff.mp hold).1
    have hsplit : σ s = (σ s).take i ++ old :: (σ s).drop (i + 1) := by
      conv => lhs; rw [← List.take_append_drop i (σ s), List.drop_eq_getElem_cons hi]
      rw [(List.getElem?_eq_some_iff.mp hold).2]
    have hset : (σ s).set i n = (σ s).take i ++ n :: (σ s).drop (i + 1) := List.set_eq_take_append_cons_drop.trans (by simp [hi])
    obtain ⟨pos, hpos, S, _⟩ := stored_sim (τ s) (σ s) (hσ s)
    refine ⟨small_upd hσ s ?_, 0, fun fuel _ => ?_⟩
    · intro x hx
      rcases List.mem_or_eq_of_mem_set hx with h | rfl
      · exact hσ s x h
      · exact holds_lt henc
    · have h1 := stdNext_sim S i 0 (by simp; omega)
      rw [Nat.zero_add, hpos i (by omega), hpos 0 (Nat.zero_le _), List.take_zero, stored_nil_size] at h1
      rw [memory_upd]
      have := edit_stored (τ s) (σ s) ((σ s).set i n) Obs.none
        (fun E m => do
          let (m1, _) ← E.assign (m ++ [E.nul]) (Spec.stored (τ s) ((σ s).take i)).size n
          pure (← E.stored m1, .none)) (fun E rep R => by
          obtain ⟨_, q, hq, _⟩ := R.assignK _ _ old n (by rw [← hsplit]; exact hσ s) henc hsz
          rw [← hsplit, ← hset, ← R.size] at hq
          simp only [hq, stored_nul, Res.bind_ok, Res.pure_eq])
      simp only [viewStep, memory, h1, Res.bind_ok, hc]
      rw [this]
      simp only [Res.bind_ok, Res.pure_eq]
  | transform s f =>
    obtain ⟨⟨cs, hcs, rfl⟩, rfl⟩ := hid
    refine ⟨small_upd hσ s ?_, (σ s).length + 1, fun fuel hf => ?_⟩
    · intro c hc
      have : (c : Int) ∈ ints cs := List.mem_map_of_mem (f := Int.ofNat) hc
      rw [hcs] at this
      obtain ⟨x, hx, hfx⟩ := List.mem_map.mp this
      obtain ⟨y, hy, rfl⟩ := List.mem_map.mp hx
      obtain ⟨n, hn, hh, _⟩ := ha y hy
      have : c = n := by
        have : (c : Int) = n := hfx.symm.trans hn
        omega
      rw [this]; exact holds_lt hh
    · rw [memory_upd]
      have := edit_stored (τ s) (σ s) cs Obs.none
        (fun E m => do
          let m1 ← E.transformLoop f m.length fuel (m ++ [E.nul]) 0
          pure (← E.stored m1, .none)) (fun E rep R => by
          obtain ⟨t, ht, _, hl⟩ := transformLoop_eqK R f (σ s) [] fuel _ (hσ s) ha rfl (by omega)
          obtain rfl := ints_injective (hcs.trans ht.symm)
          simp only [List.nil_append, R.nil, List.length_nil] at hl
          simp only [hl, Res.bind_ok, stored_nul, Res.pure_eq])
      simp only [viewStep, memory]
      rw [this]
      simp only [Res.bind_ok, Res.pure_eq]
  | read src =>
    obtain ⟨rfl, rfl⟩ := hid
    obtain ⟨I, p, q, pos, hop, hp, hq, h0, hl, S, _⟩ := opened_sim τ hσ ha
    refine ⟨hσ, (text σ1 src).length + 1, fun fuel hf => ?_⟩
    have := readRange_eq S 0 (text σ1 src).length (Nat.zero_le _) (by simp) fuel (by omega)
    rw [h0, hl, List.drop_zero, List.take_of_length_le (by simp)] at this
    simp only [viewStep, hop, this, Res.bind_ok, Res.pure_eq]
  | readBack src =>
    obtain ⟨rfl, rfl⟩ := hid
    obtain ⟨I, p, q, pos, hop, hp, hq, h0, hl, S, _⟩ := opened_sim τ hσ ha
    refine ⟨hσ, (text σ1 src).length + 1, fun fuel hf => ?_⟩
    have := readBackRange_sim S fuel (text σ1 src).length (by simp) (by omega)
    rw [h0, hl, List.take_of_length_le (by simp)] at this
    simp only [viewStep, hop, this, Res.bind_ok, Res.pure_eq]
  | readGraphemes src =>
    obtain ⟨rfl, gs, hgs, rfl⟩ := hid
    obtain ⟨hin, hdel, hlen⟩ := ha
    obtain ⟨gs0, _, hseg, huniq⟩ := graphemes_nat sort (text σ1 src)
    obtain rfl := huniq _ hgs
    obtain ⟨I, p, q, pos, hop, hp, hq, h0, hl, S, hend⟩ := opened_sim τ hσ hin
    refine ⟨hσ, (text σ1 src).length + 1, fun fuel hf => ?_⟩
    have := collect_sim S fuel (by simp; omega) (by simp; omega) (Int.ofNat (after σ1 src))
      (by simpa [hl] using hend) (fun a hlast => by
        rw [List.getLast?_map] at hlast
        obtain ⟨n, hn, rfl⟩ := Option.map_eq_some_iff.mp hlast
        exact (isGraphemeBoundary_iff _ _).mpr (hdel n hn))
    rw [h0, List.length_map, hl] at this
    simp only [viewStep, hop, this, Res.bind_ok, Res.pure_eq, hseg]
  | equal a b =>
    obtain ⟨rfl, rfl⟩ := hid
    obtain ⟨I, p, q, pos, hop, hp, hq, h0, hl, S, _⟩ := opened_sim τ hσ ha.1
    obtain ⟨J, p', q', pos', hop', hp', hq', h0', hl', T, _⟩ := opened_sim τ hσ ha.2
    refine ⟨hσ, (text σ1 a).length + 1, fun fuel hf => ?_⟩
    have := stdEqual_sim S T fuel 0 0 (Nat.zero_le _) (Nat.zero_le _) (by simp; omega)
    rw [List.length_map, List.length_map, h0, h0', hl, hl', List.drop_zero, List.drop_zero] at this
    simp only [viewStep, hop, hop', this, Res.bind_ok, Res.pure_eq]
    congr 3
    exact decide_eq_decide.mpr ⟨fun h => ints_injective h, fun h => by rw [h]⟩
  | less a b =>
    obtain ⟨rfl, rfl⟩ := hid
    obtain ⟨I, p, q, pos, hop, hp, hq, h0, hl, S, _⟩ := opened_sim τ hσ ha.1
    obtain ⟨J, p', q', pos', hop', hp', hq', h0', hl', T, _⟩ := opened_sim τ hσ ha.2
    refine ⟨hσ, (text σ1 a).length + 1, fun fuel hf => ?_⟩
    have := stdLess_sim S T fuel 0 0 (Nat.zero_le _) (Nat.zero_le _) (by simp; omega)
    rw [List.length_map, List.length_map, h0, h0', hl, hl', List.drop_zero, List.drop_zero] at this
    simp only [viewStep, hop, hop', this, Res.bind_ok, Res.pure_eq]
    congr 3
    exact decide_eq_decide.mpr (ints_lt _ _)
  | countIf src pred =>
    obtain ⟨rfl, rfl⟩ := hid
    obtain ⟨hin, hlen⟩ := ha
    obtain ⟨I, p, q, pos, hop, hp, hq, h0, hl, S, _⟩ := opened_sim τ hσ hin
    refine ⟨hσ, (text σ1 src).length + 1, fun fuel hf => ?_⟩
    have := stdCountIf_sim S pred fuel 0 (Nat.zero_le _) (by simp; omega) 0 (by omega) (by simp; omega)
    rw [List.length_map, h0, hl, List.drop_zero, List.countP_map, Int.zero_add] at this
    simp only [viewStep, hop, this, Res.bind_ok, Res.pure_eq]
    rfl

theorem ints_toNat' {v : List Int} (h : ∀ x ∈ v, ∃ n : Nat, x = n) : ints (v.map Int.toNat) = v := by
  rw [ints, List.map_map]
  conv => rhs; rw [← List.map_id v]
  refine List.map_congr_left fun x hx => ?_
  obtain ⟨n, rfl⟩ := h x hx
  simp

/-- `IdealV` as a function. -/
def idealVF (sort : SortFn) (σ : Nat → List Nat) : VOp → (Nat → List Nat) × Obs
  | .copy d s => (put σ d (σ s), .none)
  | .clear d => (put σ d [], .none)
  | .append d src | .convert d src => (put σ d (σ d ++ text σ src), .none)
  | .appendCps d v => (put σ d (σ d ++ v.map Int.toNat), .none)
  | .appendGraphemes d src i j => (put σ d (σ d ++ (((graphemesOf (text σ src)).take j).drop i).flatten), .none)
  | .normalize F d src => (put σ d (σ d ++ (normalOf sort F (text σ src)).map Int.toNat),
      .number (normalOf sort F (text σ src)).length)
  | .write s i c => (put σ s ((σ s).set i c.toNat), .none)
  | .transform s f => (put σ s (((ints (σ s)).map f).map Int.toNat), .none)
  | .read src => (σ, .codepoints (ints (text σ src)))
  | .readBack src => (σ, .codepoints (ints (text σ src)).reverse)
  | .readGraphemes src => (σ, .graphemes ((graphemesOf (text σ src)).map ints))
  | .equal a b => (σ, .bool (decide (text σ a = text σ b)))
  | .less a b => (σ, .bool (decide (text σ a < text σ b)))
  | .countIf src pred => (σ, .number ((text σ src).countP fun c => pred (Int.ofNat c)))

theorem idealVF_spec (sort : SortFn) (τ : Nat → Kind) (σ : Nat → List Nat) (op : VOp)
    (ha : (libraryData sort).Permitted τ σ op) :
    (libraryData sort).IdealV σ op (idealVF sort σ op).1 (idealVF sort σ op).2 := by
  cases op with
  | appendCps d v =>
    obtain ⟨cs, rfl, _⟩ := ha
    refine ⟨⟨cs, rfl, ?_⟩, rfl⟩
    simp [idealVF, ints, List.map_map, Function.comp_def]
  | appendGraphemes d src i j => exact ⟨⟨_, (graphemesOf_spec sort _ _).mpr rfl, rfl⟩, rfl⟩
  | normalize F d src =>
    obtain ⟨_, _, _, _, henc⟩ := ha
    have henc := henc _ ((graphemesOf_spec sort _ _).mpr rfl)
    refine ⟨_, (normalOf sort F (text σ src)).map Int.toNat, (graphemesOf_spec sort _ _).mpr rfl, ?_, rfl, ?_⟩
    · refine ints_toNat' fun x hx => ?_
      obtain ⟨g, hg, hx⟩ := List.mem_flatMap.mp hx
      obtain ⟨n, hn, _⟩ := henc g hg x hx
      exact ⟨n, hn⟩
    · simp [idealVF]
  | readGraphemes src => exact ⟨rfl, _, (graphemesOf_spec sort _ _).mpr rfl, rfl⟩
  | write s i c => obtain ⟨n, _, rfl, _⟩ := ha; exact ⟨⟨n, rfl, rfl⟩, rfl⟩
  | transform s f =>
    refine ⟨⟨_, ?_, rfl⟩, rfl⟩
    refine ints_toNat' fun x hx => ?_
    obtain ⟨y, hy, rfl⟩ := List.mem_map.mp hx
    obtain ⟨c, hc, rfl⟩ := List.mem_map.mp hy
    obtain ⟨n, hn, _⟩ := ha c hc
    exact ⟨n, hn⟩
  | copy | clear | append | convert | read | readBack | equal | less | countIf => exact ⟨rfl, rfl⟩

theorem idealV_unique (sort : SortFn) (σ : Nat → List Nat) (op : VOp) {σ1 σ2 : Nat → List Nat} {o1 o2 : Obs}
    (h1 : (libraryData sort).IdealV σ op σ1 o1) (h2 : (libraryData sort).IdealV σ op σ2 o2) : σ1 = σ2 ∧ o1 = o2 := by
  cases op with
  | appendCps d v =>
    obtain ⟨⟨cs, hv, rfl⟩, rfl⟩ := h1
    obtain ⟨⟨cs', hv', rfl⟩, rfl⟩ := h2
    obtain rfl := ints_injective (hv.symm.trans hv')
    exact ⟨rfl, rfl⟩
  | appendGraphemes d src i j =>
    obtain ⟨⟨gs, hgs, rfl⟩, rfl⟩ := h1
    obtain ⟨⟨gs', hgs', rfl⟩, rfl⟩ := h2
    rw [graphemesOf_spec] at hgs hgs'
    rw [hgs, hgs']
    exact ⟨rfl, rfl⟩
  | normalize F d src =>
    obtain ⟨gs, ns, hgs, hns, rfl, rfl⟩ := h1
    obtain ⟨gs', ns', hgs', hns', rfl, rfl⟩ := h2
    rw [graphemesOf_spec] at hgs hgs'
    subst hgs hgs'
    obtain rfl := ints_injective (hns.trans hns'.symm)
    exact ⟨rfl, rfl⟩
  | readGraphemes src =>
    obtain ⟨rfl, gs, hgs, rfl⟩ := h1
    obtain ⟨rfl, gs', hgs', rfl⟩ := h2
    rw [graphemesOf_spec] at hgs hgs'
    rw [hgs, hgs']
    exact ⟨rfl, rfl⟩
  | write s i c =>
    obtain ⟨⟨n, hc, rfl⟩, rfl⟩ := h1
    obtain ⟨⟨n', hc', rfl⟩, rfl⟩ := h2
    obtain rfl : n = n' := by omega
    exact ⟨rfl, rfl⟩
  | transform s f =>
    obtain ⟨⟨cs, hc, rfl⟩, rfl⟩ := h1
    obtain ⟨⟨cs', hc', rfl⟩, rfl⟩ := h2
    obtain rfl := ints_injective (hc.trans hc'.symm)
    exact ⟨rfl, rfl⟩
  | copy | clear | append | convert | read | readBack | equal | less | countIf =>
    obtain ⟨rfl, rfl⟩ := h1
    obtain ⟨rfl, rfl⟩ := h2
    exact ⟨rfl, rfl⟩

theorem viewRun_refines (τ : Nat → Kind) {sort : SortFn} (hs : ConformingSort sort) (ops : List VOp)
    (σ : Nat → List Nat) (hσ : Small σ) (ha : (libraryData sort).PermittedRun τ σ ops) :
    ∃ σ' os N, (libraryData sort).IdealRunV σ ops σ' os ∧ ∀ fuel, N ≤ fuel →
      viewRun sort fuel (memory τ σ) ops = .ok (memory τ σ', os) := by
  induction ops generalizing σ with
  | nil => exact ⟨σ, [], 0, .nil σ, fun _ _ => rfl⟩
  | cons op ops ih =>
    obtain ⟨ha1, ha2⟩ := ha
    have hI := idealVF_spec sort τ σ op ha1
    obtain ⟨hs1, N, hN⟩ := viewStep_refines τ hs σ hσ op ha1 _ _ hI
    obtain ⟨σ', os, M, hrun, hM⟩ := ih _ hs1 (ha2 _ _ hI)
    refine ⟨σ', _ :: os, max N M, .cons _ _ _ _ _ _ _ hI hrun, fun fuel hf => ?_⟩
    simp only [viewRun, hN fuel (by omega), Res.bind_ok, hM fuel (by omega), Res.pure_eq]

/-- C64. Any program over any number of strings, each UTF-8 or utf32ne, with any contents below 2^31, whose
statements read whole strings or views of parts of them, convert, compare and normalize across the encodings, each
statement permitted where it stands: it terminates without undefined behaviour for every conforming sort, prints
what it prints on plain sequences of codepoints, and leaves in every string the encoding of what it should hold. -/
theorem C64_programs (τ : Nat → Kind) (sort : SortFn) (hs : ConformingSort sort) (ops : List VOp)
    (σ : Nat → List Nat) (hσ : ∀ k, ∀ c ∈ σ k, c < 2 ^ 31) (ha : (libraryData sort).PermittedRun τ σ ops) :
    ∃ σ' os N, (libraryData sort).IdealRunV σ ops σ' os ∧ ∀ fuel, N ≤ fuel →
      viewRun sort fuel (fun n => Spec.stored (τ n) (σ n)) ops = .ok (fun n => Spec.stored (τ n) (σ' n), os) :=
  viewRun_refines τ hs ops σ hσ ha

/-- C64: the ideal run is determined by the program and the initial texts. -/
theorem C64_deterministic (sort : SortFn) (ops : List VOp) (σ σ1 σ2 : Nat → List Nat) (os1 os2 : List Obs)
    (h1 : (libraryData sort).IdealRunV σ ops σ1 os1) (h2 : (libraryData sort).IdealRunV σ ops σ2 os2) :
    σ1 = σ2 ∧ os1 = os2 := by
  induction h1 generalizing σ2 os2 with
  | nil σ => cases h2; exact ⟨rfl, rfl⟩
  | cons σ τ τ' op ops o os h _ ih =>
    cases h2 with
    | cons _ τ2 _ _ _ o2 os2 h' h'' =>
      obtain ⟨rfl, rfl⟩ := idealV_unique sort σ op h h'
      obtain ⟨rfl, rfl⟩ := ih _ _ h''
      exact ⟨rfl, rfl⟩

/-- C64: which strings are UTF-8 and which are utf32ne makes no difference to what is printed, nor to the
texts in the end, as long as the program is permitted with both choices. -/
theorem C64_encodings_irrelevant (τ τ' : Nat → Kind) (sort : SortFn) (hs : ConformingSort sort) (ops : List VOp)
    (σ : Nat → List Nat) (hσ : ∀ k, ∀ c ∈ σ k, c < 2 ^ 31) (ha : (libraryData sort).PermittedRun τ σ ops)
    (ha' : (libraryData sort).PermittedRun τ' σ ops) :
    ∃ (σ' : Nat → List Nat) (os : List Obs) (N : Nat), ∀ fuel, N ≤ fuel →
      viewRun sort fuel (fun n => Spec.stored (τ n) (σ n)) ops = .ok (fun n => Spec.stored (τ n) (σ' n), os) ∧
      viewRun sort fuel (fun n => Spec.stored (τ' n) (σ n)) ops = .ok (fun n => Spec.stored (τ' n) (σ' n), os) := by
  obtain ⟨σ', os, N, h1, hN⟩ := viewRun_refines τ hs ops σ hσ ha
  obtain ⟨σ2, os2, M, h2, hM⟩ := viewRun_refines τ' hs ops σ hσ ha'
  obtain ⟨rfl, rfl⟩ := C64_deterministic sort ops σ _ _ _ _ h1 h2
  exact ⟨_, _, max N M, fun fuel hf => ⟨hN fuel (by omega), hM fuel (by omega)⟩⟩

instance (k : Kind) (c : Nat) : Decidable (k.Holds c) := by cases k <;> (unfold Kind.Holds; infer_instance)

instance (σ : Nat → List Nat) (src : Src) : Decidable (Inside σ src) := by
  cases src <;> (unfold Inside; infer_instance)

/-- `Delimited` as a computation. -/
def delimitedB (σ : Nat → List Nat) (src : Src) : Bool :=
  match (text σ src).getLast? with
  | some a => isGraphemeBoundary a (after σ src)
  | none => true

theorem delimitedB_iff (sort : SortFn) (σ : Nat → List Nat) (src : Src) :
    delimitedB σ src = true ↔ (libraryData sort).Delimited σ src := by
  unfold delimitedB Ucd.Delimited
  cases h : (text σ src).getLast? with
  | none => simp
  | some a =>
    simp only [Option.some.injEq]
    rw [isGraphemeBoundary_iff]
    exact ⟨fun h b hb => hb ▸ h, fun h => h a rfl⟩

/-- What can be written, for integers. -/
def holdsB (k : Kind) (x : Int) : Bool := decide (0 ≤ x) && decide (k.Holds x.toNat)

theorem holdsB_iff (k : Kind) (x : Int) : holdsB k x = true ↔ ∃ n : Nat, x = n ∧ k.Holds n := by
  simp only [holdsB, Bool.and_eq_true, decide_eq_true_eq]
  constructor
  · rintro ⟨h0, he⟩; exact ⟨x.toNat, by omega, he⟩
  · rintro ⟨n, rfl, he⟩; exact ⟨by omega, by simpa using he⟩

/-- `Permitted` as a computation. -/
def permittedB (sort : SortFn) (τ : Nat → Kind) (σ : Nat → List Nat) : VOp → Bool
  | .copy d s => decide (τ d = τ s)
  | .clear _ => true
  | .append d src => decide (τ d = τ src.string) && decide (Inside σ src)
  | .convert d src => decide (d ≠ src.string) && (decide (Inside σ src) && decide (∀ c ∈ text σ src, (τ d).Holds c))
  | .appendCps d v => v.all (holdsB (τ d))
  | .appendGraphemes d src i j => decide (τ d = τ src.string) && (decide (Inside σ src) && (decide (i ≤ j) &&
      (decide (j ≤ (graphemesOf (text σ src)).length) &&
      decide (τ d = .utf8 → ∀ g ∈ ((graphemesOf (text σ src)).take j).drop i, ∀ c ∈ g, c < 0x80))))
  | .normalize F d src => decide (d ≠ src.string) && (decide (Inside σ src) && (delimitedB σ src &&
      (decide ((decompose F.map (ints (text σ src))).length < 2 ^ 31) &&
      (normalOf sort F (text σ src)).all (holdsB (τ d)))))
  | .write s i c => holdsB (τ s) c && (match (σ s)[i]? with
      | some old => decide (τ s = .utf8 → (encode c.toNat).length = (encode old).length)
      | none => false)
  | .transform s f => (σ s).all fun c => holdsB (τ s) (f c) &&
      decide (τ s = .utf8 → (encode (f c).toNat).length = (encode c).length)
  | .read src | .readBack src => decide (Inside σ src)
  | .readGraphemes src => decide (Inside σ src) && (delimitedB σ src && decide ((text σ src).length < 2 ^ 31))
  | .equal a b | .less a b => decide (Inside σ a) && decide (Inside σ b)
  | .countIf src _ => decide (Inside σ src) && decide ((text σ src).length < 2 ^ 31)

/-- `PermittedRun` as a computation. -/
def permittedRunB (sort : SortFn) (τ : Nat → Kind) : (Nat → List Nat) → List VOp → Bool
  | _, [] => true
  | σ, op :: ops => permittedB sort τ σ op && permittedRunB sort τ (idealVF sort σ op).1 ops

theorem permittedB_iff (sort : SortFn) (τ : Nat → Kind) (σ : Nat → List Nat) (op : VOp) :
    permittedB sort τ σ op = true ↔ (libraryData sort).Permitted τ σ op := by
  cases op with
  | copy | clear | append | convert | read | readBack | equal | less | countIf => simp [permittedB, Ucd.Permitted]
  | readGraphemes src => simp [permittedB, Ucd.Permitted, delimitedB_iff sort]
  | appendCps d v =>
    simp only [permittedB, Ucd.Permitted, List.all_eq_true, holdsB_iff]
    constructor
    · intro h
      refine ⟨v.map Int.toNat, (ints_toNat' fun x hx => ?_).symm, fun c hc => ?_⟩
      · obtain ⟨n, hn, _⟩ := h x hx; exact ⟨n, hn⟩
      · obtain ⟨x, hx, rfl⟩ := List.mem_map.mp hc
        obtain ⟨n, rfl, hn⟩ := h x hx
        simpa using hn
    · rintro ⟨cs, rfl, h⟩ x hx
      obtain ⟨c, hc, rfl⟩ := List.mem_map.mp hx
      exact ⟨c, rfl, h c hc⟩
  | appendGraphemes d src i j =>
    simp only [permittedB, Ucd.Permitted, graphemesOf_spec, exists_eq_left, Bool.and_eq_true, decide_eq_true_eq]
  | normalize F d src =>
    simp only [permittedB, Ucd.Permitted, graphemesOf_spec, forall_eq, Bool.and_eq_true, decide_eq_true_eq,
      delimitedB_iff sort, List.all_eq_true, holdsB_iff]
    refine and_congr_right fun _ => and_congr_right fun _ => and_congr_right fun _ => and_congr ?_ ?_
    · cases F <;> rfl
    · rw [normalOf]
      constructor
      · intro h g hg x hx; exact h x (List.mem_flatMap.mpr ⟨g, hg, hx⟩)
      · intro h x hx
        obtain ⟨g, hg, hx⟩ := List.mem_flatMap.mp hx
        exact h g hg x hx
  | write s i c =>
    simp only [permittedB, Ucd.Permitted, Bool.and_eq_true, holdsB_iff]
    constructor
    · rintro ⟨⟨n, rfl, h2⟩, h3⟩
      cases ho : (σ s)[i]? with
      | none => rw [ho] at h3; simp at h3
      | some old => rw [ho] at h3; exact ⟨n, old, rfl, rfl, h2, by simpa [Decidable.imp_iff_not_or] using h3⟩
    · rintro ⟨n, old, rfl, ho, h2, h3⟩
      rw [ho]
      exact ⟨⟨n, rfl, h2⟩, by simpa [Decidable.imp_iff_not_or] using h3⟩
  | transform s f =>
    simp only [permittedB, Ucd.Permitted, List.all_eq_true, Bool.and_eq_true, decide_eq_true_eq, holdsB_iff]
    refine forall_congr' fun c => forall_congr' fun _ => ?_
    constructor
    · rintro ⟨⟨n, hn, h2⟩, h3⟩; exact ⟨n, hn, h2, by rw [hn] at h3; simpa using h3⟩
    · rintro ⟨n, hn, h2, h3⟩; exact ⟨⟨n, hn, h2⟩, by rw [hn]; simpa using h3⟩

/-- C64: whether a program is permitted can be computed from the program and the initial texts. -/
theorem C64_permitted_checkable (sort : SortFn) (τ : Nat → Kind) (ops : List VOp) (σ : Nat → List Nat) :
    permittedRunB sort τ σ ops = true ↔ (libraryData sort).PermittedRun τ σ ops := by
  induction ops generalizing σ with
  | nil => simp [permittedRunB, Ucd.PermittedRun]
  | cons op ops ih =>
    rw [permittedRunB, Bool.and_eq_true, permittedB_iff, ih, Ucd.PermittedRun]
    refine and_congr_right fun ha => ?_
    have hI := idealVF_spec sort τ σ op ha
    constructor
    · intro h σ1 o h1
      obtain ⟨rfl, _⟩ := idealV_unique sort σ op h1 hI
      exact h
    · intro h; exact h _ _ hI

/-- Non-vacuity: string 0 is UTF-8, string 1 utf32ne, string 2 UTF-8, string 3 utf32ne. -/
def sampleKinds : Nat → Kind := fun k => if k % 2 = 0 then .utf8 else .utf32

/-- The same program with all strings utf32ne. -/
def sampleKinds' : Nat → Kind := fun _ => .utf32

/-- A program with every kind of statement. -/
def sampleViews : List VOp :=
  [.appendCps 0 [0x65, 0x301, 0x20AC, 0x61], .convert 1 (.view 0 0 3), .equal (.whole 1) (.view 0 0 3),
   .normalize .C 3 (.view 0 0 2), .read (.whole 3), .readGraphemes (.view 0 0 3), .readBack (.view 0 1 4),
   .less (.view 0 2 3) (.whole 1), .append 2 (.view 0 2 4), .append 2 (.view 2 0 1), .normalize .KD 2 (.whole 3),
   .read (.whole 2), .convert 0 (.whole 3), .appendGraphemes 0 (.whole 2) 0 2, .copy 1 3, .equal (.view 0 4 5) (.whole 1),
   .write 2 0 0x42, .transform 2 (fun c => if 0x61 ≤ c ∧ c ≤ 0x7A then c - 32 else c), .readGraphemes (.whole 2),
   .countIf (.view 0 1 5) (fun c => 127 < c), .clear 3, .equal (.whole 3) (.view 0 2 2)]

/-- What it prints. -/
def sampleViewsOutput : List Obs :=
  [.none, .none, .bool true, .number 1, .codepoints [0xE9], .graphemes [[0x65, 0x301], [0x20AC]],
   .codepoints [0x61, 0x20AC, 0x301], .bool false, .none, .none, .number 2,
   .codepoints [0x61, 0x62, 0x20AC, 0x61, 0x61, 0x65, 0x301], .none, .none, .none, .bool true, .none, .none,
   .graphemes [[0x42], [0x42], [0x20AC], [0x41], [0x41], [0x45, 0x301]], .number 3, .none, .bool true]

example : (libraryData insSort).PermittedRun sampleKinds sampleStore sampleViews ∧
    (libraryData insSort).PermittedRun sampleKinds' sampleStore sampleViews :=
  ⟨(C64_permitted_checkable insSort sampleKinds sampleViews sampleStore).mp (by decide +kernel),
   (C64_permitted_checkable insSort sampleKinds' sampleViews sampleStore).mp (by decide +kernel)⟩

example : (match viewRun insSort 20 (fun n => Spec.stored (sampleKinds n) (sampleStore n)) sampleViews with
    | .ok (_, os) => os | _ => []) = sampleViewsOutput ∧
    (match viewRun insSort 20 (fun n => Spec.stored (sampleKinds' n) (sampleStore n)) sampleViews with
    | .ok (_, os) => os | _ => []) = sampleViewsOutput := by decide +kernel

/-- C64: the restrictions are needed. A view that ends inside a grapheme of its string has no graphemes at all and
normalizes to nothing; converting U+0915 to UTF-8 and reading it back gives something else; appending without
conversion between encodings, converting or normalizing a string into itself, a view that ends before it begins and one
that reaches past the end of its string have no defined behaviour. -/
theorem C64_restrictions_needed :
    let run := fun ops => viewRun insSort 20
      (fun n => Spec.stored (sampleKinds n) (if n = 0 then [0x65, 0x301] else if n = 1 then [0x915] else [])) ops
    let prints := fun ops => (match run ops with | .ok (_, os) => some os | _ => none)
    let undefined : List VOp → Bool := fun ops => (match run ops with | .ub => true | _ => false)
    prints [.readGraphemes (.view 0 0 1)] = some [.graphemes []] ∧
    prints [.normalize .D 3 (.view 0 0 1)] = some [.number 0] ∧
    prints [.readGraphemes (.view 0 0 2)] = some [.graphemes [[0x65, 0x301]]] ∧
    prints [.convert 2 (.whole 1), .equal (.whole 2) (.whole 1)] ≠ some [.none, .bool true] ∧
    undefined [.append 0 (.whole 1)] ∧ undefined [.copy 1 0] ∧ undefined [.appendGraphemes 0 (.whole 1) 0 1] ∧
    undefined [.convert 0 (.view 0 0 1)] ∧ undefined [.normalize .D 0 (.view 0 0 2)] ∧
    undefined [.read (.view 0 1 0)] ∧ undefined [.less (.view 0 2 2) (.view 0 1 0)] ∧
    undefined [.read (.view 0 0 9)] := by decide +kernel

/-- The theorems applied to the sample program. -/
theorem sampleStore_small : ∀ k, ∀ c ∈ sampleStore k, c < 2 ^ 31 := by
  intro k c hc
  simp only [sampleStore] at hc
  split at hc <;> simp at hc
  rcases hc with rfl | rfl <;> decide

example := C64_programs sampleKinds insSort insSort_stable.1 sampleViews sampleStore sampleStore_small
  ((C64_permitted_checkable insSort sampleKinds sampleViews sampleStore).mp (by decide +kernel))

example := C64_encodings_irrelevant sampleKinds sampleKinds' insSort insSort_stable.1 sampleViews sampleStore
  sampleStore_small
  ((C64_permitted_checkable insSort sampleKinds sampleViews sampleStore).mp (by decide +kernel))
  ((C64_permitted_checkable insSort sampleKinds' sampleViews sampleStore).mp (by decide +kernel))

end U5e
