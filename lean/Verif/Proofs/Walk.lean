import Verif.Proofs.Utf8Iter
import Verif.Proofs.Utf8Spec
import Verif.Spec.Text
import Verif.Spec.Bounds
/-! Whole-text lemmas for UTF-8 iteration. -/
namespace U5e
open Spec

theorem Holds.left {m p u v} (h : Holds m p (u ++ v)) : Holds m p u := by
  intro i hi
  rw [h i (by simp; omega), List.getElem?_append_left hi]

theorem Holds.right {m p u v} (h : Holds m p (u ++ v)) : Holds m (p + u.length) v := by
  intro i hi
  have := h (u.length + i) (by simp; omega)
  rw [List.getElem?_append_right (by omega)] at this
  rw [Nat.add_assoc, this]; congr 1; omega

theorem walk_units (m : Mem) (us : List (List Octet)) (hu : WellShaped us) (p : Nat)
    (hm : Holds m p us.flatten) (o : Octet) (ho : m[p + us.flatten.length]? = some o)
    (hc : ¬ IsContinuation o) (fuel : Nat) (hf : us.length < fuel) :
    walk m (p + us.flatten.length) fuel p = .ok (us.map fun u => (payload u : Int)) := by
  induction us generalizing p fuel with
  | nil =>
    cases fuel with
    | zero => omega
    | succ n =>
      have : iterEq m p p = .ok true := iterEq_self (by simpa using ho) hc
      simp [walk, this]
  | cons u us ih =>
    cases fuel with
    | zero => omega
    | succ n =>
      have hu0 : IsUnit u := hu u (by simp)
      have hm1 : Holds m p u := by
        rw [List.flatten_cons] at hm; exact hm.left
      have hm2 : Holds m (p + u.length) us.flatten := by
        rw [List.flatten_cons] at hm; exact hm.right
      have hlen : (u :: us).flatten.length = u.length + us.flatten.length := by simp
      rw [hlen, ← Nat.add_assoc] at ho ⊢
      have hih := ih (fun v hv => hu v (by simp [hv])) (p + u.length) hm2 ho n (by simp at hf; omega)
      have hpos := hu0.length_pos
      have h1 := iterEq_unit hu0 hm1 hpos (p + u.length + us.flatten.length)
      have h2 := cur_unit hu0 hm1 hpos
      have h3 := fwd_unit hu0 hm1 hpos
      rw [Nat.add_zero] at h1 h2 h3
      have h4 : decide (p ≤ p + u.length + us.flatten.length ∧
          p + u.length + us.flatten.length < p + u.length) = false := by
        apply decide_eq_false; omega
      rw [h4] at h1
      simp only [walk, h1, h2, h3, hih, Res.bind_ok, Bool.false_eq_true, if_false, Res.pure_eq,
        List.map_cons]

theorem cpSize_claimed (o : UInt8) (h : ¬ IsContinuation o) : cpSize o = claimed o := by
  have : ∀ o : UInt8, ¬ IsContinuation o → cpSize o = claimed o := by
    apply forall_octet; decide +kernel
  exact this o h

/-- An iterator on the end position `e` can be compared: it covers the `n` octets from `e`. -/
def EndAt (m : Mem) (e n : Nat) : Prop :=
  (∀ q, iterEq m e q = .ok (decide (e ≤ q ∧ q < e + n))) ∧ rewind m e = .ok e

theorem endAt_unit {m : Mem} {p : Nat} {u : List Octet} (hu : IsUnit u) (hm : Holds m p u) :
    EndAt m p u.length := by
  have h1 := iterEq_unit hu hm hu.length_pos
  have h2 := rewind_unit hu hm hu.length_pos
  rw [Nat.add_zero] at h1 h2
  exact ⟨h1, h2⟩

theorem endAt_followed {t : List Octet} (ht : Followed t) (pre : List Octet) :
    ∃ n, 0 < n ∧ EndAt (pre ++ t) pre.length n := by
  obtain ⟨o, ho, hc, hcl⟩ := ht
  have hg : (pre ++ t)[pre.length]? = some o := by
    rw [List.getElem?_append_right (by omega), Nat.sub_self, ← List.head?_eq_getElem?, ho]
  refine ⟨cpSize o, cpSize_pos o, fun q => ?_, rewind_stop hg hc⟩
  simp only [iterEq, rewind_stop hg hc, rd_some hg, Res.bind_ok]
  exact eqLoop_eq _ q _ _ (by rw [cpSize_claimed o hc]; simp; omega)

theorem followed_unit {t : List Octet} (ht : IsUnit t) (post : List Octet) : Followed (t ++ post) := by
  cases t with
  | nil => exact ht.elim
  | cons l cs =>
    have key : ∀ l : UInt8, announced l ≠ 0 → ¬ IsContinuation l ∧ claimed l = announced l := by
      apply forall_octet; decide +kernel
    obtain ⟨h1, h2⟩ := key l (by have := ht.1; omega)
    exact ⟨l, rfl, h1, by rw [h2, ht.1]; simp⟩

/-- `--` from the end position onto the last unit. -/
theorem bwd_end {m : Mem} {p : Nat} {u : List Octet} (hu : IsUnit u) (hm : Holds m p u)
    (hr : rewind m (p + u.length) = .ok (p + u.length)) : bwd m (p + u.length) = .ok p := by
  have hl := hu.length_pos
  obtain ⟨k, hk⟩ : ∃ k, u.length = k + 1 := ⟨u.length - 1, by omega⟩
  have h2 : rewind m (p + k) = .ok p := rewind_unit hu hm (by omega)
  have h3 : p + u.length = (p + k) + 1 := by omega
  rw [h3] at hr ⊢
  simp [bwd, hr, retreat, h2]

theorem walkBack_units' (m : Mem) (us : List (List Octet)) (hu : WellShaped us) (p : Nat)
    (hm : Holds m p us.flatten) (n : Nat) (hn0 : 0 < n)
    (hE : EndAt m (p + us.flatten.length) n) (fuel : Nat) (hf : us.length < fuel) :
    walkBack m p fuel (p + us.flatten.length) =
      .ok (us.map fun u => (payload u : Int)).reverse := by
  -- generalise over the already consumed suffix: induct on the reversed list
  induction hn : us.length generalizing us n fuel with
  | zero =>
    obtain rfl : us = [] := List.length_eq_zero_iff.mp hn
    cases fuel with
    | zero => omega
    | succ _ =>
      have := hE.1 p
      simp only [List.flatten_nil, List.length_nil, Nat.add_zero] at this ⊢
      rw [show decide (p ≤ p ∧ p < p + n) = true by
        apply decide_eq_true; omega] at this
      simp [walkBack, this]
  | succ k ih =>
    have hne : us ≠ [] := by intro h; simp [h] at hn
    obtain ⟨vs, v, rfl⟩ : ∃ vs v, us = vs ++ [v] :=
      ⟨us.dropLast, us.getLast hne, (List.dropLast_concat_getLast hne).symm⟩
    have hfl : (vs ++ [v]).flatten = vs.flatten ++ v := by simp
    rw [hfl] at hm hE ⊢
    have hv : IsUnit v := hu v (by simp)
    have hmv : Holds m (p + vs.flatten.length) v := hm.right
    cases fuel with
    | zero => omega
    | succ f =>
      have hlen : p + (vs.flatten ++ v).length = p + vs.flatten.length + v.length := by
        simp; omega
      rw [hlen] at hE ⊢
      have h1 := hE.1 p
      rw [show decide (p + vs.flatten.length + v.length ≤ p ∧
          p < p + vs.flatten.length + v.length + n) = false by
        apply decide_eq_false; have := hv.length_pos; omega] at h1
      have h2 := bwd_end hv hmv hE.2
      have h3 := cur_unit hv hmv hv.length_pos
      rw [Nat.add_zero] at h3
      have h4 := ih vs (fun w hw => hu w (by simp [hw])) hm.left v.length hv.length_pos (endAt_unit hv hmv) f
        (by simp at hn hf; omega) (by simpa using hn)
      simp only [walkBack, h1, h2, h3, h4, Res.bind_ok, Bool.false_eq_true, if_false, Res.pure_eq,
        List.map_append, List.map_cons, List.map_nil, List.reverse_append, List.reverse_cons,
        List.reverse_nil, List.nil_append, List.cons_append]

/-- Position `x` of a well-shaped text followed by a unit: either inside a unit or the end. -/
theorem iterEq_text' (m : Mem) (us : List (List Octet)) (hu : WellShaped us) (p : Nat)
    (hm : Holds m p us.flatten) (n : Nat) (hn0 : 0 < n)
    (hmt : EndAt m (p + us.flatten.length) n) (x y : Nat) (hx : x ≤ us.flatten.length)
    (hy : y ≤ us.flatten.length) :
    iterEq m (p + x) (p + y) = .ok (decide (unitIndex us x = unitIndex us y)) := by
  -- auxiliary: iterEq from x compares against the unit containing x
  have aux : ∀ (us : List (List Octet)) (_ : WellShaped us) (p : Nat) (_ : Holds m p us.flatten)
      (_ : EndAt m (p + us.flatten.length) n) (x : Nat) (_ : x ≤ us.flatten.length) (q : Nat)
      (_ : q ≤ p + us.flatten.length),
      iterEq m (p + x) q = .ok (decide (p ≤ q ∧ unitIndex us x = unitIndex us (q - p))) := by
    intro us
    induction us with
    | nil =>
      intro _ p _ hmt x hx q hq
      simp only [List.flatten_nil, List.length_nil, Nat.add_zero, Nat.le_zero] at hx hq hmt
      subst hx
      rw [Nat.add_zero, hmt.1 q]; congr 1
      apply decide_eq_decide.mpr
      simp only [unitIndex, and_true]
      omega
    | cons u us ih =>
      intro hu p hm hmt x hx q hq
      have hu0 : IsUnit u := hu u (by simp)
      rw [List.flatten_cons] at hm hmt hx hq
      rw [List.length_append] at hmt hx hq
      rw [← Nat.add_assoc] at hmt hq
      by_cases hxu : x < u.length
      · rw [iterEq_unit hu0 hm.left hxu q]; congr 1
        apply decide_eq_decide.mpr
        simp only [unitIndex, hxu, if_true]
        constructor
        · rintro ⟨h1, h2⟩; exact ⟨h1, by rw [if_pos (by omega)]⟩
        · rintro ⟨h1, h2⟩
          refine ⟨h1, ?_⟩
          split at h2 <;> omega
      · have hpx : p + x = (p + u.length) + (x - u.length) := by omega
        rw [hpx, ih (fun v hv => hu v (by simp [hv])) (p + u.length) hm.right hmt (x - u.length)
          (by omega) q hq]
        congr 1
        apply decide_eq_decide.mpr
        have e1 : unitIndex (u :: us) x = unitIndex us (x - u.length) + 1 := by
          simp [unitIndex, hxu]
        rw [e1]
        constructor
        · rintro ⟨h1, h2⟩
          refine ⟨by omega, ?_⟩
          have e2 : unitIndex (u :: us) (q - p) = unitIndex us (q - p - u.length) + 1 := by
            simp only [unitIndex]; rw [if_neg (by omega)]
          rw [e2, h2]; congr 2; omega
        · rintro ⟨h1, h2⟩
          have hge : ¬ q - p < u.length := by
            intro hlt; simp only [unitIndex, hlt, if_true] at h2; omega
          have e2 : unitIndex (u :: us) (q - p) = unitIndex us (q - p - u.length) + 1 := by
            simp only [unitIndex]; rw [if_neg (by omega)]
          rw [e2] at h2
          refine ⟨by omega, ?_⟩
          have : q - p - u.length = q - (p + u.length) := by omega
          rw [this] at h2; omega
  rw [aux us hu p hm hmt x hx (p + y) (by omega)]
  congr 1
  apply decide_eq_decide.mpr
  have : p + y - p = y := by omega
  rw [this]
  constructor
  · exact fun h => h.2
  · exact fun h => ⟨by omega, h⟩

theorem iterEq_text (m : Mem) (us : List (List Octet)) (hu : WellShaped us) (p : Nat)
    (hm : Holds m p us.flatten) (t : List Octet) (ht : IsUnit t)
    (hmt : Holds m (p + us.flatten.length) t) (x y : Nat) (hx : x ≤ us.flatten.length)
    (hy : y ≤ us.flatten.length) :
    iterEq m (p + x) (p + y) = .ok (decide (unitIndex us x = unitIndex us y)) := 
  iterEq_text' m us hu p hm t.length ht.length_pos (endAt_unit ht hmt) x y hx hy

theorem encodeText_flatten (cs : List Nat) : encodeText cs = (cs.map encode).flatten := by
  simp [encodeText, List.flatMap]

theorem wellShaped_encode (cs : List Nat) (h : ∀ c ∈ cs, c < 2 ^ 31) :
    WellShaped (cs.map encode) := by
  intro u hu
  obtain ⟨c, hc, rfl⟩ := List.mem_map.mp hu
  exact encode_isUnit c (h c hc)

theorem map_payload_encode (cs : List Nat) (h : ∀ c ∈ cs, c < 2 ^ 31) :
    (cs.map encode).map (fun u => (payload u : Int)) = cs.map Int.ofNat := by
  rw [List.map_map]
  apply List.map_congr_left
  intro c hc
  simp [payload_encode c (h c hc)]

/-- A rewound position is a fixed point of `rewind`. -/
theorem rewind_idem {m : Mem} {p s : Nat} (h : rewind m p = .ok s) : rewind m s = .ok s := by
  induction p with
  | zero =>
    have h' := h
    cases hm : rd m 0 with
    | ok o =>
      by_cases hc : isCont o = true
      · simp [rewind, hm, hc] at h
      · simp [rewind, hm, hc] at h; subst h; exact h'
    | ub => simp [rewind, hm] at h
    | tmo => simp [rewind, hm] at h
  | succ p ih =>
    have h' := h
    cases hm : rd m (p + 1) with
    | ok o =>
      by_cases hc : isCont o = true
      · simp [rewind, hm, hc] at h; exact ih h
      · simp [rewind, hm, hc] at h; subst h; exact h'
    | ub => simp [rewind, hm] at h
    | tmo => simp [rewind, hm] at h

theorem rd_no_tmo (m : Mem) (p : Nat) : rd m p ≠ .tmo := by unfold rd; first | (split <;> simp) | simp
theorem adv_no_tmo (m : Mem) (p n : Nat) : adv m p n ≠ .tmo := by unfold adv; first | (split <;> simp) | simp
theorem rewind_no_tmo (m : Mem) (p : Nat) : rewind m p ≠ .tmo := by
  induction p with
  | zero =>
    rw [rewind]
    cases hm : rd m 0 with
    | ok o => simp only [Res.bind_ok]; split <;> simp
    | ub => simp
    | tmo => exact absurd hm (rd_no_tmo m 0)
  | succ p ih =>
    rw [rewind]
    cases hm : rd m (p + 1) with
    | ok o => simp only [Res.bind_ok]; split; exact ih; simp
    | ub => simp
    | tmo => exact absurd hm (rd_no_tmo m _)
theorem fwd_no_tmo (m : Mem) (p : Nat) : fwd m p ≠ .tmo := by
  rw [fwd]
  cases h : rewind m p with
  | ok s =>
    simp only [Res.bind_ok]
    cases h2 : rd m s with
    | ok o => exact adv_no_tmo m _ _
    | ub => simp
    | tmo => exact absurd h2 (rd_no_tmo m s)
  | ub => simp
  | tmo => exact absurd h (rewind_no_tmo m p)
theorem decLoop_no_tmo (m : Mem) (n q : Nat) (v : BitVec 32) : decLoop m n q v ≠ .tmo := by
  induction n generalizing q v with
  | zero => simp [decLoop]
  | succ n ih =>
    rw [decLoop]
    cases h : adv m q 1 with
    | ok q' =>
      simp only [Res.bind_ok]
      cases h2 : rd m q' with
      | ok o => exact ih _ _
      | ub => simp
      | tmo => exact absurd h2 (rd_no_tmo m q')
    | ub => simp
    | tmo => exact absurd h (adv_no_tmo m q 1)

/-- Dereferencing is defined or undefined, and leaves the iterator in the same unit. -/
theorem cur_cases (m : Mem) (p : Nat) :
    (∃ r, cur m p = .ok r ∧ rewind m r.2 = rewind m p) ∨ cur m p = .ub := by
  rw [cur]
  cases h : rd m p with
  | ub => exact .inr rfl
  | tmo => exact absurd h (rd_no_tmo m p)
  | ok o =>
    simp only [Res.bind_ok]
    split
    · exact .inl ⟨_, rfl, rfl⟩
    · cases h1 : rewind m p with
      | ub => exact .inr rfl
      | tmo => exact absurd h1 (rewind_no_tmo m p)
      | ok s =>
        simp only [Res.bind_ok]
        cases h2 : rd m s with
        | ub => exact .inr rfl
        | tmo => exact absurd h2 (rd_no_tmo m s)
        | ok f =>
          simp only [Res.bind_ok, maskFirst]
          split
          · simp only [Res.bind_ok]
            cases h3 : decLoop m (cpSize f - 1) s
                (promote f &&& ((~~~ (0xFF#32 <<< (7 - cpSize f))) &&& 0xFF#32)) with
            | ub => exact .inr rfl
            | tmo => exact absurd h3 (decLoop_no_tmo _ _ _ _)
            | ok w => exact .inl ⟨_, rfl, rewind_idem h1⟩
          · exact .inr rfl

theorem walkPost_eq (m : Mem) (e fuel p : Nat) : walkPost m e fuel p = walk m e fuel p := by
  induction fuel generalizing p with
  | zero => rfl
  | succ fuel ih =>
    rw [walk, walkPost]
    congr 1; funext done
    split
    · rfl
    · rcases cur_cases m p with ⟨⟨c, q⟩, hr, hq⟩ | hr
      · have : fwd m q = fwd m p := by simp only [fwd]; rw [hq]
        simp only [hr, Res.bind_ok, this, ih]
      · rw [hr]
        cases hf : fwd m p with
        | ok x => rfl
        | ub => rfl
        | tmo => exact absurd hf (fwd_no_tmo m p)

end U5e
