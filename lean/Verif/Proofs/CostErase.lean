import Verif.Model.Cost
import Verif.Proofs.Bsearch
/-! Forgetting the counter gives back the functions of the rest of the model. -/
namespace U5e
namespace Work

theorem res_bind {x : Work α} {f : α → Work β} : (x >>= f).res = (x.res >>= fun a => (f a).res) := by
  show (Work.bind x f).res = _
  unfold Work.bind
  cases x.res <;> rfl

@[simp] theorem res_pure (a : α) : (pure a : Work α).res = .ok a := rfl
@[simp] theorem res_free (r : Res α) : (free r).res = r := rfl
@[simp] theorem res_ub : (ub : Work α).res = .ub := rfl
@[simp] theorem res_tmo : (tmo : Work α).res = .tmo := rfl
@[simp] theorem res_rd (m : Mem) (p : Nat) : (rd m p).res = U5e.rd m p := rfl
theorem res_ite {c : Prop} [Decidable c] {x y : Work α} : (if c then x else y).res = if c then x.res else y.res := by
  split <;> rfl

theorem rewind_res (m : Mem) (p : Nat) : (rewind m p).res = U5e.rewind m p := by
  induction p with
  | zero => simp [rewind, U5e.rewind, res_bind, res_ite]
  | succ p ih => simp [rewind, U5e.rewind, res_bind, res_ite, ih]

theorem fwd_res (m : Mem) (p : Nat) : (fwd m p).res = U5e.fwd m p := by
  simp [fwd, U5e.fwd, res_bind, rewind_res]

theorem bwd_res (m : Mem) (p : Nat) : (bwd m p).res = U5e.bwd m p := by
  simp [bwd, U5e.bwd, res_bind, rewind_res]

theorem decLoop_res (m : Mem) (n q : Nat) (v : BitVec 32) : (decLoop m n q v).res = U5e.decLoop m n q v := by
  induction n generalizing q v with
  | zero => rfl
  | succ n ih => simp [decLoop, U5e.decLoop, res_bind, ih]

theorem cur_res (m : Mem) (p : Nat) : (cur m p).res = U5e.cur m p := by
  simp [cur, U5e.cur, res_bind, res_ite, rewind_res, decLoop_res]

theorem iterEq_res (m : Mem) (p q : Nat) : (iterEq m p q).res = U5e.iterEq m p q := by
  simp [iterEq, U5e.iterEq, res_bind, rewind_res]

theorem walk_res (m : Mem) (e fuel p : Nat) : (walk m e fuel p).res = U5e.walk m e fuel p := by
  induction fuel generalizing p with
  | zero => rfl
  | succ f ih => simp [walk, U5e.walk, res_bind, res_ite, iterEq_res, cur_res, fwd_res, ih]

theorem walkBack_res (m : Mem) (e fuel p : Nat) : (walkBack m e fuel p).res = U5e.walkBack m e fuel p := by
  induction fuel generalizing p with
  | zero => rfl
  | succ f ih => simp [walkBack, U5e.walkBack, res_bind, res_ite, iterEq_res, cur_res, bwd_res, ih]

theorem bsearchLoop_res (cmp : α → Ordering) (t : List α) (fuel l u : Nat) :
    (bsearchLoop cmp t fuel l u).res = U5e.bsearchLoop cmp t fuel l u := by
  induction fuel generalizing l u with
  | zero => rfl
  | succ f ih =>
    simp only [bsearchLoop, U5e.bsearchLoop, res_ite, res_bind]
    split
    · cases t[(l + u) / 2]? with
      | none => rfl
      | some x =>
        simp only [Res.bind_ok]
        cases cmp x <;> simp [ih]
    · rfl

theorem bsearch_res (cmp : α → Ordering) (t : List α) : (bsearch cmp t).res = .ok (U5e.bsearch cmp t) := by
  have h : (bsearch cmp t).res = U5e.bsearchRes cmp t := bsearchLoop_res cmp t _ _ _
  obtain ⟨r, hr⟩ := bsearchRes_ok cmp t
  rw [h, U5e.bsearch, hr]

theorem cccResolve_res (c : Int) : (cccResolve c).res = .ok (U5e.cccResolve c) := by
  rw [cccResolve, res_bind, bsearch_res, U5e.cccResolve]
  simp only [Res.bind_ok]
  cases U5e.bsearch (compareValueToRow c) Data.cccTable <;> rfl

theorem decResolve_res (c : Int) : (decResolve c).res = .ok (U5e.decResolve c) := by
  rw [decResolve, res_bind, bsearch_res, U5e.decResolve]
  simp only [Res.bind_ok]
  cases U5e.bsearch (compareValueToRow c) Data.decTable <;> rfl

theorem kdecResolve_res (c : Int) : (kdecResolve c).res = .ok (U5e.kdecResolve c) := by
  rw [kdecResolve, res_bind, bsearch_res, U5e.kdecResolve]
  simp only [Res.bind_ok]
  cases U5e.bsearch (compareValueToRow c) Data.kdecTable <;> rfl

theorem compResolve_res (a b : Int) : (compResolve a b).res = .ok (U5e.compResolve a b) := by
  rw [compResolve, res_bind, bsearch_res, U5e.compResolve]
  simp only [Res.bind_ok]
  cases U5e.bsearch (comparePairToRow a b) Data.compTable <;> rfl

theorem gcbResolve_res (c : Int) : (gcbResolve c).res = .ok (U5e.gcbResolve c) := by
  rw [gcbResolve, res_bind, bsearch_res, U5e.gcbResolve]
  simp only [Res.bind_ok]
  cases U5e.bsearch (compareValueToRange c) Data.gcbTable <;> rfl

theorem isGraphemeBoundary_res (a b : Int) : (isGraphemeBoundary a b).res = .ok (U5e.isGraphemeBoundary a b) := by
  simp [isGraphemeBoundary, U5e.isGraphemeBoundary, res_bind, gcbResolve_res]

theorem combiningOrder_res (a b : Int) : (combiningOrder a b).res = .ok (canonicalCombiningOrder a b) := by
  simp [combiningOrder, canonicalCombiningOrder, res_bind, cccResolve_res]

/-- The iterator without its counter. -/
def CpIter.plain (I : CpIter) : U5e.CpIter where
  deref p := (I.deref p).res
  inc p := (I.inc p).res
  dec p := (I.dec p).res
  eq a b := (I.eq a b).res

theorem utf8Iter_plain (m : Mem) : (utf8Iter m).plain = U5e.utf8Iter m := by
  simp only [CpIter.plain, utf8Iter, U5e.utf8Iter]
  congr 1
  · funext p; exact cur_res m p
  · funext p; exact fwd_res m p
  · funext p; exact bwd_res m p
  · funext a b; exact iterEq_res m a b

theorem utf32Iter_plain (m : List Int) : (utf32Iter m).plain = U5e.utf32Iter m := rfl

variable (I : CpIter)

theorem findEndLoop_res (e fuel : Nat) (a : Int) (p : Nat) :
    (findEndLoop I e fuel a p).res = U5e.findEndLoop I.plain e fuel a p := by
  induction fuel generalizing a p with
  | zero => rfl
  | succ f ih =>
    simp [findEndLoop, U5e.findEndLoop, res_bind, res_ite, isGraphemeBoundary_res, ih, CpIter.plain]

theorem findEnd_res (fuel e p : Nat) : (findEnd I fuel e p).res = U5e.findEnd I.plain fuel e p := by
  simp [findEnd, U5e.findEnd, res_bind, res_ite, findEndLoop_res, CpIter.plain]

theorem findStartLoop_res (b fuel : Nat) (a : Int) (p : Nat) :
    (findStartLoop I b fuel a p).res = U5e.findStartLoop I.plain b fuel a p := by
  induction fuel generalizing a p with
  | zero => rfl
  | succ f ih =>
    simp [findStartLoop, U5e.findStartLoop, res_bind, res_ite, isGraphemeBoundary_res, ih, CpIter.plain]

theorem findStart_res (fuel b p : Nat) : (findStart I fuel b p).res = U5e.findStart I.plain fuel b p := by
  simp [findStart, U5e.findStart, res_bind, res_ite, findStartLoop_res, CpIter.plain]

theorem gBegin_res (fuel b e : Nat) : (gBegin I fuel b e).res = U5e.gBegin I.plain fuel b e := by
  simp [gBegin, U5e.gBegin, res_bind, findEnd_res]

theorem gAt_res (fuel b e w : Nat) : (gAt I fuel b e w).res = U5e.gAt I.plain fuel b e w := by
  simp [gAt, U5e.gAt, res_bind, findEnd_res, findStart_res]

theorem gInc_res (fuel : Nat) (g : GIter) : (gInc I fuel g).res = g.inc I.plain fuel := by
  simp [gInc, GIter.inc, res_bind, findEnd_res]

theorem eqCpLoop_res (x o fuel c : Nat) : (eqCpLoop I x o fuel c).res = U5e.eqCpLoop I.plain x o fuel c := by
  induction fuel generalizing c with
  | zero => rfl
  | succ f ih => simp [eqCpLoop, U5e.eqCpLoop, res_bind, res_ite, ih, CpIter.plain]

theorem eqCp_res (fuel : Nat) (g : GIter) (o : Nat) : (eqCp I fuel g o).res = g.eqCp I.plain fuel o := by
  simp [eqCp, GIter.eqCp, res_bind, res_ite, eqCpLoop_res, CpIter.plain]

theorem eqGLoop_res (gf x : Nat) (g : GIter) (fuel c : Nat) :
    (eqGLoop I gf x g fuel c).res = U5e.eqGLoop I.plain gf x g fuel c := by
  induction fuel generalizing c with
  | zero => rfl
  | succ f ih => simp [eqGLoop, U5e.eqGLoop, res_bind, res_ite, ih, eqCp_res, CpIter.plain]

theorem eqG_res (fuel : Nat) (g h : GIter) : (eqG I fuel g h).res = g.eqG I.plain fuel h := by
  simp only [eqG, GIter.eqG, res_bind, res_ite, eqGLoop_res, eqCp_res, res_pure]
  rfl

/-- The input iterator without its counter. -/
def InputIter.plain (it : InputIter σ α) : U5e.InputIter σ α where
  ne a b := (it.ne a b).res
  deref s := (it.deref s).res
  inc s := (it.inc s).res

theorem input_plain : I.input.plain = I.plain.input := by
  simp [InputIter.plain, CpIter.input, U5e.CpIter.input, CpIter.plain, res_bind]

theorem graphemeInput_plain (fuel : Nat) : (graphemeInput I fuel).plain = U5e.graphemeInput I.plain fuel := by
  simp [InputIter.plain, graphemeInput, U5e.graphemeInput, res_bind, eqG_res, gInc_res]

theorem filterLoop_res (it : InputIter σ α) (op : α → β → Work (Int × β)) (to : σ) (fuel : Nat) (s : σ) (out : β)
    (k : Int) : (filterLoop it op to fuel s out k).res =
      U5e.filterLoop it.plain (fun a b => (op a b).res) to fuel s out k := by
  induction fuel generalizing s out k with
  | zero => rfl
  | succ f ih => simp [filterLoop, U5e.filterLoop, res_bind, res_ite, ih, InputIter.plain]

theorem filter_res (it : InputIter σ α) (op : α → β → Work (Int × β)) (to : σ) (fuel : Nat) (s : σ) (out : β) :
    (filter it fuel s to out op).res = U5e.filter it.plain fuel s to out (fun a b => (op a b).res) :=
  filterLoop_res _ _ _ _ _ _ _

theorem filterGraphemes_res (fuel b e : Nat) (out : β) (op : Grapheme → β → Work (Int × β)) :
    (filterGraphemes I fuel b e out op).res =
      U5e.filterGraphemes I.plain fuel b e out (fun g o => (op g o).res) := by
  simp [filterGraphemes, U5e.filterGraphemes, res_bind, gBegin_res, gAt_res, filter_res, graphemeInput_plain,
    graphemeBegin, graphemeEnd]

theorem mappingCount_res (l : List Int) (k : Int) : (mappingCount l k).res = U5e.mappingCount l k := by
  induction l generalizing k with
  | nil => rfl
  | cons x l ih => simp [mappingCount, U5e.mappingCount, res_bind, res_ite, ih]

theorem codepointDecomposition_res (r : Int → Work (Option (List Int))) (r' : Int → Option (List Int))
    (h : ∀ c, (r c).res = .ok (r' c)) (c : Int) (out : List Int) :
    (codepointDecomposition r c out).res = U5e.codepointDecomposition r' c out := by
  rw [codepointDecomposition, res_bind, h, U5e.codepointDecomposition]
  simp only [Res.bind_ok]
  cases r' c with
  | none => simp [res_bind]
  | some l => simp [res_bind, mappingCount_res]

theorem compositionLoop_res (fuel : Nat) (data : List Int) (oi i : Nat) (k : Int) :
    (compositionLoop fuel data oi i k).res = U5e.compositionLoop fuel data oi i k := by
  induction fuel generalizing data oi i k with
  | zero => rfl
  | succ f ih =>
    simp only [compositionLoop, U5e.compositionLoop, res_bind, res_ite, ih, res_pure, res_free, compResolve_res, Res.bind_ok,
      Res.pure_eq]
    split
    · rfl
    congr 1; funext a
    split
    · rfl
    congr 1; funext b
    cases U5e.compResolve a b <;> simp [res_bind, ih]

theorem runForm_res (F : Form) (append : AppendFn β) (out : β) (sort : SortFn) (compared : List Int → List (Int × Int))
    (fuel : Nat) (g : Grapheme) :
    (runForm F sort compared append I fuel g out).res = F.run sort append I.plain fuel g out := by
  have hd : ∀ c o, (codepointDecomposition decResolve c o).res = canonicalDecomposition c o :=
    codepointDecomposition_res _ _ decResolve_res
  have hk : ∀ c o, (codepointDecomposition kdecResolve c o).res = compatibilityDecomposition c o :=
    codepointDecomposition_res _ _ kdecResolve_res
  cases F <;>
    simp [runForm, Form.run, normalizationFormD, normalizationFormC, normalizationFormKD, normalizationFormKC, res_bind,
      filter_res, input_plain, resolver, hd, hk, sorted, finish, canonicalComposition, U5e.canonicalComposition,
      compositionLoop_res]

theorem normalizeText_res (F : Form) (append : AppendFn β) (out : β) (sort : SortFn)
    (compared : List Int → List (Int × Int)) (fuel b e : Nat) :
    (normalizeText F sort compared append I fuel b e out).res =
      U5e.normalizeText (F.run sort append) I.plain fuel b e out := by
  rw [normalizeText, filterGraphemes_res, U5e.normalizeText]
  congr 1; funext g o
  exact runForm_res I F append o sort compared fuel g

end Work
end U5e
