import Verif.Proofs.CostErase
import Verif.Proofs.SimInst
/-! How many octets the UTF-8 iterator reads. -/
namespace U5e
open Spec
namespace Work

theorem reads_ok {x : Work α} {f : α → Work β} {a : α} (h : x.res = .ok a) :
    (x >>= f).reads = x.reads + (f a).reads := by
  show (Work.bind x f).reads = _
  unfold Work.bind
  rw [h]

theorem reads_le {x : Work α} {f : α → Work β} {j k : Nat} (hx : x.reads ≤ j)
    (hf : ∀ a, x.res = .ok a → (f a).reads ≤ k) : (x >>= f).reads ≤ j + k := by
  show (Work.bind x f).reads ≤ _
  unfold Work.bind
  cases h : x.res with
  | ok a => have := hf a h; simp only; omega
  | ub => simp only; omega
  | tmo => simp only; omega

@[simp] theorem reads_pure (a : α) : (pure a : Work α).reads = 0 := rfl
@[simp] theorem reads_free (r : Res α) : (free r).reads = 0 := rfl
@[simp] theorem reads_ub : (ub : Work α).reads = 0 := rfl
@[simp] theorem reads_tmo : (tmo : Work α).reads = 0 := rfl
@[simp] theorem reads_rd (m : Mem) (p : Nat) : (rd m p).reads = 1 := rfl

theorem pure_bind (a : α) (f : α → Work β) : (pure a >>= f) = f a := by
  show Work.bind ⟨.ok a, 0⟩ f = _
  unfold Work.bind; simp

theorem rd_ok {m : Mem} {p : Nat} {o : Octet} : (rd m p).res = .ok o ↔ m[p]? = some o := by
  simp only [res_rd, U5e.rd]
  cases m[p]? <;> simp

/-- A scan back from `p` reads the octets between where it stops and `p`. -/
theorem rewind_reads {m : Mem} {p s : Nat} (h : (rewind m p).res = .ok s) : s ≤ p ∧ (rewind m p).reads = p - s + 1 := by
  induction p with
  | zero =>
    rw [rewind] at h ⊢
    rw [res_bind] at h
    obtain ⟨o, ho, h⟩ := Res.bind_eq_ok.mp h
    rw [reads_ok ho]
    cases hc : isCont o <;> rw [hc] at h <;> simp at h
    subst h; simp
  | succ p ih =>
    rw [rewind] at h ⊢
    rw [res_bind] at h
    obtain ⟨o, ho, h⟩ := Res.bind_eq_ok.mp h
    rw [reads_ok ho]
    cases hc : isCont o <;> rw [hc] at h <;> simp at h
    · subst h; simp
    · obtain ⟨h1, h2⟩ := ih h
      simp [h2]; omega

theorem rewind_le (m : Mem) (p : Nat) : (rewind m p).reads ≤ p + 1 := by
  induction p with
  | zero =>
    rw [rewind]
    refine reads_le (j := 1) (k := 0) (by simp) fun o _ => ?_
    split <;> simp
  | succ p ih =>
    rw [rewind]
    refine Nat.le_trans (reads_le (j := 1) (k := p + 1) (by simp) fun o _ => ?_) (by omega)
    split
    · exact ih
    · simp

/-- A scan back that meets an octet that is not a continuation octet reads no further. -/
theorem rewind_near {m : Mem} {s p : Nat} {o : Octet} (ho : m[s]? = some o) (hc : isCont o = false) (hsp : s ≤ p) :
    (rewind m p).reads ≤ p - s + 1 := by
  induction p with
  | zero => exact Nat.le_trans (rewind_le m 0) (by omega)
  | succ p ih =>
    by_cases h : s = p + 1
    · subst h
      rw [rewind]
      refine Nat.le_trans (reads_le (j := 1) (k := 0) (by simp) fun o' ho' => ?_) (by omega)
      rw [rd_ok, ho] at ho'; cases ho'; rw [hc]; simp
    · rw [rewind]
      refine Nat.le_trans (reads_le (j := 1) (k := p - s + 1) (by simp) fun o' _ => ?_) (by omega)
      split
      · exact ih (by omega)
      · simp

/-- Where a scan back stops there is no continuation octet. -/
theorem rewind_stops {m : Mem} {p s : Nat} (h : U5e.rewind m p = .ok s) : ∃ o, m[s]? = some o ∧ isCont o = false := by
  induction p with
  | zero =>
    rw [U5e.rewind] at h
    obtain ⟨o, ho, h⟩ := Res.bind_eq_ok.mp h
    cases hc : isCont o <;> rw [hc] at h <;> simp at h
    subst h
    exact ⟨o, rd_ok.mp ho, hc⟩
  | succ p ih =>
    rw [U5e.rewind] at h
    obtain ⟨o, ho, h⟩ := Res.bind_eq_ok.mp h
    cases hc : isCont o <;> rw [hc] at h <;> simp at h
    · subst h; exact ⟨o, rd_ok.mp ho, hc⟩
    · exact ih h

theorem decLoop_le (m : Mem) (n q : Nat) (v : BitVec 32) : (decLoop m n q v).reads ≤ n := by
  induction n generalizing q v with
  | zero => simp [decLoop]
  | succ n ih =>
    rw [decLoop]
    refine Nat.le_trans (reads_le (j := 0) (k := 1 + n) (by simp) fun q' _ => ?_) (by omega)
    exact reads_le (by simp) fun o _ => ih _ _

/-- `p` is at most eight octets after one that is not a continuation octet. -/
def Near (m : Mem) (p : Nat) : Prop := ∃ s o, m[s]? = some o ∧ isCont o = false ∧ s ≤ p ∧ p ≤ s + 8

theorem near_rewind {m : Mem} {p : Nat} (h : Near m p) : (rewind m p).reads ≤ 9 := by
  obtain ⟨s, o, h1, h2, h3, h4⟩ := h
  exact Nat.le_trans (rewind_near h1 h2 h3) (by omega)

theorem near_start {m : Mem} {p : Nat} {o : Octet} (h : m[p]? = some o) (hc : isCont o = false) : Near m p :=
  ⟨p, o, h, hc, by omega, by omega⟩

theorem near_fwd {m : Mem} {p q : Nat} (h : U5e.fwd m p = .ok q) : Near m q := by
  rw [U5e.fwd] at h
  obtain ⟨s, hs, h⟩ := Res.bind_eq_ok.mp h
  obtain ⟨o, ho, h⟩ := Res.bind_eq_ok.mp h
  rw [adv] at h
  split at h
  · cases h
    obtain ⟨o', ho', hc⟩ := rewind_stops hs
    have := cpSize_le o
    exact ⟨s, o', ho', hc, by omega, by omega⟩
  · simp at h

/-- What the iterator does after `*it` costs little: it now is at the beginning of a codepoint. -/
theorem cur_moves {m : Mem} {p p1 : Nat} {c : Int} (h : U5e.cur m p = .ok (c, p1)) :
    p1 ≤ p ∧ ∃ o, m[p1]? = some o ∧ isCont o = false := by
  rw [U5e.cur] at h
  obtain ⟨o, ho, h⟩ := Res.bind_eq_ok.mp h
  split at h
  · rename_i h7
    simp at h
    rw [← h.2]
    refine ⟨by omega, o, rd_ok.mp ho, ?_⟩
    revert h7
    have : ∀ o : Octet, is7bit o = true → isCont o = false := by
      intro o h
      simp only [is7bit_iff, Bool.eq_false_iff, ne_eq, isCont_iff] at *
      intro hc; have := hc.1; omega
    exact this o
  · obtain ⟨s, hs, h⟩ := Res.bind_eq_ok.mp h
    obtain ⟨f, hf, h⟩ := Res.bind_eq_ok.mp h
    obtain ⟨mask, _, h⟩ := Res.bind_eq_ok.mp h
    obtain ⟨v, _, h⟩ := Res.bind_eq_ok.mp h
    simp at h
    rw [← h.2]
    refine ⟨?_, rewind_stops hs⟩
    rw [← rewind_res] at hs
    exact (rewind_reads hs).1

theorem fwd_start {m : Mem} {p : Nat} {o : Octet} (h : m[p]? = some o) (hc : isCont o = false) : (fwd m p).reads ≤ 2 := by
  rw [fwd]
  refine reads_le (j := 1) (k := 1) ?_ fun s _ => ?_
  · exact Nat.le_trans (rewind_near h hc (Nat.le_refl _)) (by omega)
  · exact reads_le (j := 1) (k := 0) (by simp) fun _ _ => by simp

theorem near_eq {m : Mem} {p : Nat} (h : Near m p) (e : Nat) : (iterEq m p e).reads ≤ 10 := by
  rw [iterEq]
  refine reads_le (j := 9) (k := 1) (near_rewind h) fun s _ => ?_
  exact reads_le (j := 1) (k := 0) (by simp) fun _ _ => by simp

theorem mask_size {f : Octet} {k : BitVec 32} (h : maskFirst (cpSize f) = .ok k) : cpSize f ≤ 7 := by
  rw [maskFirst] at h
  split at h
  · assumption
  · simp at h

theorem near_cur {m : Mem} {p : Nat} (h : Near m p) : (cur m p).reads ≤ 17 := by
  rw [cur]
  refine reads_le (j := 1) (k := 16) (by simp) fun o _ => ?_
  split
  · simp
  · refine reads_le (j := 9) (k := 7) (near_rewind h) fun s _ => ?_
    refine reads_le (j := 1) (k := 6) (by simp) fun f _ => ?_
    refine reads_le (j := 0) (k := 6) (by simp) fun mask hm => ?_
    have := mask_size hm
    exact reads_le (j := 6) (k := 0) (Nat.le_trans (decLoop_le _ _ _ _) (by omega)) fun _ _ => by simp

/-- Going forward from the beginning of a codepoint costs at most 29 reads a round, on any octets. -/
theorem walk_le (m : Mem) (e fuel p : Nat) (h : Near m p) : (walk m e fuel p).reads ≤ 29 * fuel := by
  induction fuel generalizing p with
  | zero => simp [walk]
  | succ f ih =>
    rw [walk]
    refine Nat.le_trans (reads_le (j := 10) (k := 19 + 29 * f) (near_eq h e) fun d _ => ?_) (by omega)
    split
    · simp
    · refine Nat.le_trans (reads_le (j := 17) (k := 2 + 29 * f) (near_cur h) fun cp hcp => ?_) (by omega)
      rw [cur_res] at hcp
      obtain ⟨_, o, h1, h2⟩ := cur_moves hcp
      refine reads_le (fwd_start h1 h2) fun p2 hp2 => ?_
      rw [fwd_res] at hp2
      exact reads_le (j := 29 * f) (k := 0) (ih p2 (near_fwd hp2)) fun _ _ => by simp

/-- More fuel than the codepoints read makes no difference. -/
theorem walk_ok_le (m : Mem) (e fuel p : Nat) (h : Near m p) (cs : List Int) (hr : U5e.walk m e fuel p = .ok cs) :
    (walk m e fuel p).reads ≤ 29 * cs.length + 10 := by
  induction fuel generalizing p cs with
  | zero => simp [U5e.walk] at hr
  | succ f ih =>
    rw [U5e.walk] at hr
    obtain ⟨d, hd, hr⟩ := Res.bind_eq_ok.mp hr
    rw [walk, reads_ok (by rw [iterEq_res]; exact hd)]
    have h10 := near_eq h e
    cases d
    · simp only [Bool.false_eq_true, if_false] at hr ⊢
      obtain ⟨⟨c, p1⟩, hc, hr⟩ := Res.bind_eq_ok.mp hr
      obtain ⟨p2, hp2, hr⟩ := Res.bind_eq_ok.mp hr
      obtain ⟨rest, hrest, hr⟩ := Res.bind_eq_ok.mp hr
      simp at hr; subst hr
      obtain ⟨_, o, h1, h2⟩ := cur_moves hc
      have := near_cur h
      have := fwd_start h1 h2
      have := ih p2 (near_fwd hp2) rest hrest
      rw [reads_ok (by rw [cur_res]; exact hc)]
      dsimp only
      rw [reads_ok (by rw [fwd_res]; exact hp2), reads_ok (by rw [walk_res]; exact hrest)]
      simp only [reads_pure, List.length_cons]
      omega
    · simp only [if_true, reads_pure]; omega

theorem cur_start {m : Mem} {p : Nat} {o : Octet} (h : m[p]? = some o) (hc : isCont o = false) : (cur m p).reads ≤ 9 := by
  rw [cur]
  refine reads_le (j := 1) (k := 8) (by simp) fun o _ => ?_
  split
  · simp
  · refine reads_le (j := 1) (k := 7) (Nat.le_trans (rewind_near h hc (Nat.le_refl _)) (by omega)) fun s _ => ?_
    refine reads_le (j := 1) (k := 6) (by simp) fun f _ => ?_
    refine reads_le (j := 0) (k := 6) (by simp) fun mask hm => ?_
    have := mask_size hm
    exact reads_le (j := 6) (k := 0) (Nat.le_trans (decLoop_le _ _ _ _) (by omega)) fun _ _ => by simp

theorem eq_start {m : Mem} {p : Nat} {o : Octet} (h : m[p]? = some o) (hc : isCont o = false) (e : Nat) :
    (iterEq m p e).reads ≤ 2 := by
  rw [iterEq]
  refine reads_le (j := 1) (k := 1) (Nat.le_trans (rewind_near h hc (Nat.le_refl _)) (by omega)) fun s _ => ?_
  exact reads_le (j := 1) (k := 0) (by simp) fun _ _ => by simp

/-- Going back from the beginning of a codepoint reads every octet at most 13 times, on any octets. -/
theorem walkBack_le (m : Mem) (b fuel p : Nat) {o : Octet} (h : m[p]? = some o) (hc : isCont o = false) :
    (walkBack m b fuel p).reads ≤ 13 * p + 3 := by
  induction fuel generalizing p o with
  | zero => simp [walkBack]
  | succ f ih =>
    rw [walkBack]
    refine Nat.le_trans (reads_le (j := 2) (k := 13 * p + 1) (eq_start h hc b) fun d _ => ?_) (by omega)
    split
    · simp
    · rw [bwd]
      have hrw : (rewind m p).res = .ok p := by
        rw [rewind_res]
        refine rewind_stop h ?_
        rw [← isCont_iff]; simp [hc]
      cases hb : (rewind m p >>= fun s => free (retreat s) >>= fun q => rewind m q).res with
      | ub =>
        refine Nat.le_trans (reads_le (j := p + 1) (k := 0) ?_ fun a ha => ?_) (by omega)
        · rw [reads_ok hrw, (rewind_reads hrw).2]
          cases p with
          | zero => exact Nat.le_trans (Nat.add_le_add_left (reads_le (j := 0) (k := 0) (by simp) fun q hq => by simp [retreat] at hq) _) (by omega)
          | succ p =>
            rw [reads_ok (a := p) (by simp [retreat])]
            have := rewind_le m p
            simp; omega
        · rw [hb] at ha; simp at ha
      | tmo =>
        refine Nat.le_trans (reads_le (j := p + 1) (k := 0) ?_ fun a ha => ?_) (by omega)
        · rw [reads_ok hrw, (rewind_reads hrw).2]
          cases p with
          | zero => exact Nat.le_trans (Nat.add_le_add_left (reads_le (j := 0) (k := 0) (by simp) fun q hq => by simp [retreat] at hq) _) (by omega)
          | succ p =>
            rw [reads_ok (a := p) (by simp [retreat])]
            have := rewind_le m p
            simp; omega
        · rw [hb] at ha; simp at ha
      | ok p1 =>
        rw [reads_ok hb]
        rw [res_bind, hrw, Res.bind_ok, res_bind] at hb
        cases p with
        | zero => simp [retreat] at hb
        | succ p =>
          simp only [retreat, res_free, Res.bind_ok] at hb
          obtain ⟨hle, hrd⟩ := rewind_reads hb
          have hb' := hb
          rw [rewind_res] at hb'
          obtain ⟨o1, h1, hc1⟩ := rewind_stops hb'
          have hread : (rewind m (p + 1) >>= fun s => free (retreat s) >>= fun q => rewind m q).reads ≤ 1 + (p - p1 + 1) := by
            rw [reads_ok hrw, reads_ok (a := p) (by simp [retreat]), (rewind_reads hrw).2, hrd]
            simp
          have hrest : (cur m p1 >>= fun x => walkBack m b f x.2 >>= fun rest => pure (x.1 :: rest)).reads ≤ 9 + (13 * p1 + 3) := by
            refine reads_le (cur_start h1 hc1) fun x hx => ?_
            rw [cur_res] at hx
            obtain ⟨hle2, o2, h2, hc2⟩ := cur_moves (p1 := x.2) (c := x.1) hx
            refine reads_le (j := 13 * p1 + 3) (k := 0) (Nat.le_trans (ih x.2 h2 hc2) (by omega)) fun _ _ => by simp
          have := Nat.add_le_add hread hrest
          refine Nat.le_trans this ?_
          omega

end Work
end U5e
