import Verif.Spec.Moved
import Verif.Lemmas.Py

set_option autoImplicit false
set_option linter.unusedSectionVars false

/-! # The origin of the Y axis: morphology -/

namespace Verif.Model
open Verif Fl List Spec

variable {K : Type} [Field K] [LinearOrder K] [IsStrictOrderedRing K]

section fl
variable (d : K) (a b : Fl K)

theorem sh_sub_sh : sh d a - sh d b = a - b := by
  unfold sh
  cases a <;> cases b <;> first | rfl | simp
theorem sh_isnan : (sh d a).isnan = a.isnan := by cases a <;> rfl
theorem sh_blt : (sh d a <? sh d b) = (a <? b) := by
  unfold sh; cases a <;> cases b <;> first | rfl | simp
theorem sh_ble : (sh d a ≤? sh d b) = (a ≤? b) := by
  unfold sh; cases a <;> cases b <;> first | rfl | simp
theorem sh_add : sh d a + b = sh d (a + b) := by
  unfold sh; cases a <;> cases b <;> first | rfl | (simp; ring)
theorem sh_sub : sh d a - b = sh d (a - b) := by
  unfold sh; cases a <;> cases b <;> first | rfl | (simp; ring)
theorem sh_fix : sh d (a - sh d b) = a - b := by
  unfold sh; cases a <;> cases b <;> first | rfl | (simp; ring)
theorem sh_nan : sh d (nan : Fl K) = nan := rfl
theorem sh_mid : (sh d a + sh d b) / fin 2 = sh d ((a + b) / fin 2) := by
  have hp : (pinf / fin 2 : Fl K) = pinf := if_pos zero_le_two
  have hn : (ninf / fin 2 : Fl K) = ninf := if_pos zero_le_two
  unfold sh
  cases a <;> cases b
  case fin.fin x y => simp; field_simp; ring
  all_goals first | rfl | skip
  all_goals first
    | (show (pinf / fin 2 : Fl K) = pinf / fin 2 + fin d; rw [hp]; rfl)
    | (show (ninf / fin 2 : Fl K) = ninf / fin 2 + fin d; rw [hn]; rfl)
theorem sh_pymin : pymin (sh d a) (sh d b) = sh d (pymin a b) := by
  unfold pymin; rw [sh_blt]; split <;> rfl
end fl


section gen
variable {ε α α' β β' : Type}

theorem bind_mv {x : Except ε α} {x' : Except ε α'} {g : α → α'} {f : α → Except ε β} {f' : α' → Except ε β'} {k : β → β'} (hx : x' = x.map g)
    (hf : ∀ a, f' (g a) = (f a).map k) : (x' >>= f') = (x >>= f).map k := by
  subst hx
  cases x with
  | error e => rfl
  | ok a => exact hf a

theorem bind_same {x x' : Except ε α} {f : α → Except ε β} {f' : α → Except ε β'} {k : β → β'} (hx : x' = x) (hf : ∀ a, f' a = (f a).map k) :
    (x' >>= f') = (x >>= f).map k := by
  subst hx
  cases x' with
  | error e => rfl
  | ok a => exact hf a

theorem map_id_except (x : Except ε α) : x.map (fun a => a) = x := by cases x <;> rfl

theorem ixGet_map (f : α → β) (l : List α) (i : ℕ) : ixGet (l.map f) i = (ixGet l i).map f := by
  unfold ixGet
  rw [getElem?_map]
  cases l[i]? <;> rfl

theorem pyGet_map (f : α → β) (l : List α) (i : ℤ) : pyGet (l.map f) i = (pyGet l i).map f := by
  unfold pyGet
  rw [length_map]
  split
  · exact ixGet_map f l _
  · split
    · exact ixGet_map f l _
    · rfl

theorem whereIx_map (f : α → β) (p : β → Bool) (l : List α) : whereIx p (l.map f) = whereIx (fun a => p (f a)) l := by
  unfold whereIx
  rw [length_map]
  apply filter_congr
  intro i _
  rw [getElem?_map]
  cases l[i]? <;> rfl

theorem whereIx_congr {p q : α → Bool} (h : ∀ a, p a = q a) (l : List α) : whereIx p l = whereIx q l := by
  rw [show p = q from funext h]

theorem firstIx_map (f : α → β) (p : β → Bool) (l : List α) : firstIx p (l.map f) = firstIx (fun a => p (f a)) l := by
  unfold firstIx; rw [whereIx_map]

theorem lastIx_map (f : α → β) (p : β → Bool) (l : List α) : lastIx p (l.map f) = lastIx (fun a => p (f a)) l := by
  unfold lastIx; rw [whereIx_map]

theorem gather_mv (f : α → β) (l : List α) : ∀ ix : List ℕ, gather (l.map f) ix = (gather l ix).map (List.map f)
  | [] => rfl
  | i :: is => by
    have ih := gather_mv f l is
    unfold gather at ih ⊢
    rw [mapM_cons, mapM_cons]
    refine bind_mv (ixGet_map f l i) (fun a => bind_mv ih (fun b => rfl))

theorem modify_mv {f : α → β} {g : β → β} {g' : α → α} (h : ∀ a, g (f a) = f (g' a)) (l : List α) (i : ℕ) : (l.map f).modify i g = (l.modify i g').map f := by
  apply ext_getElem?
  intro j
  rw [getElem?_modify, getElem?_map, getElem?_map, getElem?_modify]
  cases l[j]? with
  | none => rfl
  | some a =>
    simp only [Option.map_some, Option.map_eq_map]
    split
    · exact congrArg some (h a)
    · rfl

theorem mapIdx_mv {f : α → β} {g : ℕ → β → β} {g' : ℕ → α → α} (h : ∀ i a, g i (f a) = f (g' i a)) (l : List α) : (l.map f).mapIdx g = (l.mapIdx g').map f := by
  apply ext_getElem?
  intro j
  simp only [getElem?_mapIdx, getElem?_map, Option.map_map]
  cases l[j]? with
  | none => rfl
  | some a => exact congrArg some (h j a)

theorem map_mv {f : α → β} {g : β → β'} {g' : α → α'} {f' : α' → β'} (h : ∀ a, g (f a) = f' (g' a)) (l : List α) : (l.map f).map g = (l.map g').map f' := by
  rw [map_map, map_map]; exact map_congr_left (fun a _ => h a)

theorem map_same {f : α → β} {g : β → α'} {g' : α → α'} (h : ∀ a, g (f a) = g' a) (l : List α) : (l.map f).map g = l.map g' := by
  rw [map_map]; exact map_congr_left (fun a _ => h a)

theorem any_mv {f : α → β} {g : β → Bool} {g' : α → Bool} (h : ∀ a, g (f a) = g' a) (l : List α) : (l.map f).any g = l.any g' := by
  rw [any_map]; congr 1; exact funext h

theorem all_mv {f : α → β} {g : β → Bool} {g' : α → Bool} (h : ∀ a, g (f a) = g' a) (l : List α) : (l.map f).all g = l.all g' := by
  rw [all_map]; congr 1; exact funext h

theorem filter_mv {f : α → β} {g : β → Bool} {g' : α → Bool} (h : ∀ a, g (f a) = g' a) (l : List α) : (l.map f).filter g = (l.filter g').map f := by
  rw [filter_map]; congr 2; exact funext h

end gen

/-- A transect with derived quantities, moved. -/
def cmv (d : K) (c : Cell K) : Cell K := { c with t := moveT d c.t }
/-- Arguments of the update, moved. -/
def imv (d : K) (a : MorIn K) : MorIn K := { a with rows := moveRows d a.rows }
/-- State during the update, moved. -/
def smv (d : K) (s : MorSt K) : MorSt K := { s with cells := s.cells.map (cmv d) }

section cell
variable (pp : PhysPars K) (d : K)

theorem mkCell_mv (a : MorIn K) (i : ℕ) (r : Transect K) : mkCell pp (imv d a) i (moveT d r) = cmv d (mkCell pp a i r) := by
  simp only [mkCell, imv, cmv, moveT, sh_isnan, sh_sub_sh, sh_blt]

theorem cliff_mv (c : Cell K) : cliffCell pp (cmv d c) = cmv d (cliffCell pp c) := by
  unfold cliffCell
  simp only [cmv, moveT, sh_ble]
  split
  · simp only [sh_sub_sh, sh_fix, sh_sub, sh_add]
  · rfl

theorem negWidth_mv (c : Cell K) : negWidth (cmv d c) = negWidth c := by
  simp only [negWidth, cmv, moveT, sh_blt]

theorem overwashOf_mv (c : Cell K) : overwashOf (cmv d c) = overwashOf c := by
  simp only [overwashOf, cmv, moveT, sh_sub_sh]

theorem overwash_mv (c : Cell K) : overwashCell (cmv d c) = cmv d (overwashCell c) := by
  unfold overwashCell
  rw [negWidth_mv, overwashOf_mv]
  simp only [cmv, moveT]
  split
  · split_ifs <;> simp only [sh_add, sh_sub_sh, sh_nan]
  · rfl

theorem elong_mv (st : MorSt K) (c : Cell K) : elongCell pp (smv d st) (cmv d c) = cmv d (elongCell pp st c) := by
  simp only [elongCell, cmv, smv, moveT, sh_sub]

theorem seaPreventCell_mv (c : Cell K) : seaPreventCell (cmv d c) = cmv d (seaPreventCell c) := by
  simp only [seaPreventCell, cmv, moveT, sh_sub_sh, sh_fix, sh_sub]

theorem extendCell_mv (c : Cell K) : extendCell (cmv d c) = cmv d (extendCell c) := by
  simp only [extendCell, cmv, moveT, sh_nan]

theorem lagoonPreventCell_mv (c : Cell K) : lagoonPreventCell pp (cmv d c) = cmv d (lagoonPreventCell pp c) := by
  unfold lagoonPreventCell
  simp only [cmv, moveT, sh_sub_sh, sh_fix, sh_sub, sh_blt]
  split
  · simp only [sh_sub_sh, sh_fix, sh_sub, sh_add]
  · rfl

theorem mergeLagoonCell_mv (c : Cell K) : mergeLagoonCell (cmv d c) = cmv d (mergeLagoonCell c) := by
  simp only [mergeLagoonCell, cmv, moveT, sh_sub_sh, sh_add, sh_nan]

theorem notGreater_mv (a b : Fl K) (m j : Bool) : notGreater (sh d a) (sh d b) m j = notGreater a b m j := by
  simp only [notGreater, sh_blt]

theorem wideEnough_mv (c : Cell K) : wideEnough pp (cmv d c) = wideEnough pp c := by
  simp only [wideEnough, cmv, moveT, sh_sub_sh]

theorem lagoonHit_mv (j : ℕ → Bool) (i : ℕ) (c : Cell K) : lagoonHit j i (cmv d c) = lagoonHit j i c := by
  simp only [lagoonHit, cmv, moveT, notGreater_mv, sh_isnan]

theorem shoreHit_mv (j : ℕ → Bool) (i : ℕ) (c : Cell K) : shoreHit j i (cmv d c) = shoreHit j i c := by
  simp only [shoreHit, cmv, moveT, notGreater_mv, sh_isnan]

theorem mergeShoreCell_mv (c : Cell K) : mergeShoreCell pp (cmv d c) = cmv d (mergeShoreCell pp c) := by
  simp only [mergeShoreCell, cmv, moveT, sh_sub_sh, sh_fix, sh_sub, sh_nan]

theorem eroded_mv (t : Transect K) : eroded (moveT d t) = eroded t := by
  simp only [eroded, moveT, sh_ble, sh_blt]

theorem restoreCell_mv (c : Cell K) : restoreCell (cmv d c) = cmv d (restoreCell c) := by
  simp only [restoreCell, cmv, moveT, sh_sub_sh, sh_fix, sh_sub, sh_add]

theorem crestCell_mv (c : Cell K) : crestCell (cmv d c) = cmv d (crestCell c) := by
  unfold crestCell
  by_cases h : c.op = true
  · rw [if_pos h, if_pos (show (cmv d c).op = true from h)]; rfl
  · rw [if_neg h, if_neg (show ¬ (cmv d c).op = true from h)]

theorem breachCell_mv (w z : Fl K) (c : Cell K) : breachCell pp w z (cmv d c) = cmv d (breachCell pp w z c) := by
  simp only [breachCell, cmv, moveT]
  simp only [sh_mid]
  simp only [sh_sub, sh_add, sh_pymin, sh_ble]
  congr 2
  · exact (apply_ite (sh d) _ _ _).symm
  · exact (apply_ite (sh d) _ _ _).symm

theorem keepCell_mv (c : Cell K) : keepCell pp (cmv d c) = cmv d (keepCell pp c) := by
  unfold keepCell
  simp only [cmv, moveT, sh_sub_sh]
  split
  · simp only [sh_sub]
  · rfl

end cell

section rates
variable (pp : PhysPars K) (d : K)

theorem bind_cong {ε α α' β : Type} {x : Except ε α} {x' : Except ε α'} {g : α → α'} {f : α → Except ε β} {f' : α' → Except ε β} (hx : x' = x.map g)
    (hf : ∀ a, f' (g a) = f a) : (x' >>= f') = (x >>= f) := by
  subst hx
  cases x with
  | error e => rfl
  | ok a => exact hf a

theorem bind_cong' {ε α β : Type} {x x' : Except ε α} {f f' : α → Except ε β} (hx : x' = x) (hf : ∀ a, f' a = f a) : (x' >>= f') = (x >>= f) := by
  subst hx; rw [show f' = f from funext hf]

theorem precalc_mv (a : MorIn K) : precalc pp (imv d a) = (precalc pp a).map (fun r => (r.1.map (cmv d), r.2)) := by
  unfold precalc
  refine bind_same (firstIx_map _ _ _) (fun X0 => ?_)
  refine bind_same ?_ (fun rb => ?_)
  · show (if a.Closed = true then _ else _) = _
    congr 1
    exact firstIx_map _ _ _
  have hl : (imv d a).rows.length = a.rows.length := length_map _
  have hm : (imv d a).rows.mapIdx (mkCell pp (imv d a)) = (a.rows.mapIdx (mkCell pp a)).map (cmv d) := by
    apply ext_getElem?
    intro j
    simp only [imv, moveRows, getElem?_mapIdx, getElem?_map, Option.map_map]
    cases a.rows[j]? with
    | none => rfl
    | some r => exact congrArg some (mkCell_mv pp d a j r)
  rw [hl, hm]
  simp only [show (imv d a).LagoonWL = a.LagoonWL from rfl, show (imv d a).OutletDep = a.OutletDep from rfl, show (imv d a).Closed = a.Closed from rfl,
    show (imv d a).outlet = a.outlet from rfl]
  split
  · rfl
  · split
    · rfl
    · refine bind_same (congrArg pyAssert (congrArg not (any_mv (fun c => rfl) _))) (fun _ => ?_)
      exact bind_same (congrArg pyAssert (all_mv (fun c => rfl) _)) (fun _ => rfl)

theorem addCol_mv (l : List (Fl K)) (ixs : List ℕ) (ss : List (Sec K)) (rs : List (Transect K)) (f : Sec K → Transect K → Fl K)
    (h : ∀ s r, f s (moveT d r) = f s r) : addCol l ixs ss (rs.map (moveT d)) f = addCol l ixs ss rs f := by
  unfold addCol
  rw [zipWith_map_right, show (fun a b => f a (moveT d b)) = f from funext (fun s => funext (fun r => h s r))]

theorem lagBank_mv (r : Transect K) : lagBank (moveT d r) = lagBank r := by
  simp only [lagBank, moveT, sh_isnan]

theorem riverRates_mv (a : MorIn K) (cells : List (Cell K)) : riverRates pp (imv d a) (cells.map (cmv d)) = riverRates pp a cells := by
  unfold riverRates
  have hl : (imv d a).rows.length = a.rows.length := length_map _
  rw [hl]
  refine bind_cong' rfl (fun ss => ?_)
  refine bind_cong (gather_mv _ _ _) (fun onRows => ?_)
  refine bind_cong' (addCol_mv d _ _ _ _ _ (fun s r => by simp only [moveT, sh_sub_sh])) (fun z3 => ?_)
  refine bind_cong' (addCol_mv d _ _ _ _ _ (fun s r => by simp only [lagBank_mv]; rfl)) (fun y3 => ?_)
  refine bind_cong' (addCol_mv d _ _ _ _ _ (fun s r => rfl)) (fun y4 => ?_)
  show (if a.Closed = true then _ else _) = _
  congr 1
  refine bind_cong (gather_mv _ _ _) (fun outRows => ?_)
  refine bind_cong' (addCol_mv d _ _ _ _ _ (fun s r => by simp only [moveT, sh_sub_sh])) (fun z1 => ?_)
  refine bind_cong' (addCol_mv d _ _ _ _ _ (fun s r => rfl)) (fun y1 => ?_)
  refine bind_cong' (addCol_mv d _ _ _ _ _ (fun s r => rfl)) (fun y2 => ?_)
  refine bind_cong' rfl (fun e => ?_)
  refine bind_cong' rfl (fun bl => ?_)
  rw [map_map]
  rfl

theorem lstInterior_mv (a : MorIn K) (cells : List (Cell K)) (y0 : List (Fl K)) : lstInterior (imv d a) (cells.map (cmv d)) y0 = lstInterior a cells y0 := by
  unfold lstInterior
  simp only [length_map, show (imv d a).LST = a.LST from rfl, show (imv d a).Dx = a.Dx from rfl]
  congr 2
  apply ext_getElem?
  intro j
  simp only [getElem?_mapIdx, zip, zipWith_map_right, getElem?_zipWith]
  cases y0[j]? <;> cases cells[j]? <;> rfl

theorem lstRates_mv (a : MorIn K) (rb : ℕ) (cells : List (Cell K)) (R : Rates K) :
    lstRates pp (imv d a) rb (cells.map (cmv d)) R = (lstRates pp a rb cells R).map (fun r => (r.1, r.2.map (cmv d))) := by
  unfold lstRates
  refine bind_same (lstInterior_mv d a cells R.y0) (fun y0 => ?_)
  simp only [length_map]
  show (if a.Closed = true then _ else _) = Except.map _ (if a.Closed = true then _ else _)
  split
  · rfl
  · refine bind_same rfl (fun l => ?_)
    split
    · refine bind_mv (ixGet_map _ _ _) (fun c => rfl)
    · refine bind_mv (ixGet_map _ _ _) (fun c => ?_)
      show Except.ok _ = Except.ok _
      congr 2
      refine modify_mv (fun c' => ?_) _ _
      simp only [cmv, moveT, sh_add]
      rfl

theorem cstRates_mv (a : MorIn K) (cells : List (Cell K)) (R : Rates K) : cstRates pp (imv d a) (cells.map (cmv d)) R = cstRates pp a cells R := by
  have key : ∀ (l : List (Fl K)) (f : ℕ → Fl K → Cell K → Fl K), (∀ i v c, f i v (cmv d c) = f i v c) →
      (l.zip (cells.map (cmv d))).mapIdx (fun i (v, c) => f i v c) = (l.zip cells).mapIdx (fun i (v, c) => f i v c) := by
    intro l f h
    apply ext_getElem?
    intro j
    simp only [getElem?_mapIdx, zip, zipWith_map_right, getElem?_zipWith]
    cases l[j]? <;> cases cells[j]? <;> first | rfl | exact congrArg some (h _ _ _)
  unfold cstRates
  simp only [length_map]
  show (if a.CST.length ≠ _ ∨ a.OverwashProp.length ≠ _ then _ else _) = _
  congr 2
  congr 1
  · exact key R.y0 (fun i v c => if 0 < i ∧ i + 1 < cells.length then v - (a.CST[i]?).getD nan / c.sfh else -(fin pp.ShorelineErosionRate) / fin 31557600) (fun _ _ _ => rfl)
  · exact key R.y1 (fun i v c => if c.op then v - (a.OverwashProp[i]?).getD nan * (a.CST[i]?).getD nan / c.bh else v) (fun _ _ _ => rfl)
  · exact key R.y3 (fun i v c => if c.op then v else v - (a.OverwashProp[i]?).getD nan * (a.CST[i]?).getD nan / c.bh) (fun _ _ _ => rfl)
  · exact key R.z0 (fun i v c => v + (fin 1 - (a.OverwashProp[i]?).getD nan) * (a.CST[i]?).getD nan / c.cw) (fun _ _ _ => rfl)

theorem applyRates_mv (a : MorIn K) (dt : ℤ) (R : Rates K) (cells : List (Cell K)) :
    applyRates (imv d a) dt R (cells.map (cmv d)) = (applyRates a dt R cells).map (smv d) := by
  unfold applyRates
  show (if R.riv.length + 1 ≠ a.RiverElev.length then _ else _) = _
  split
  · rfl
  · show Except.ok _ = Except.ok _
    unfold smv
    simp only
    congr 2
    refine mapIdx_mv (fun i c => ?_) _
    simp only [moveCell, cmv, moveT, sh_add]

theorem allRates_mv (a : MorIn K) (rb : ℕ) (cells : List (Cell K)) :
    allRates pp (imv d a) rb (cells.map (cmv d)) = (allRates pp a rb cells).map (fun r => (r.1, r.2.map (cmv d))) := by
  unfold allRates
  refine bind_same (riverRates_mv pp d a cells) (fun R => ?_)
  refine bind_mv (lstRates_mv pp d a rb cells R) (fun ⟨R, cs⟩ => ?_)
  exact bind_same (cstRates_mv pp d a cs R) (fun R => rfl)

theorem forceStage_mv (a : MorIn K) : forceStage pp (imv d a) = (forceStage pp a).map (fun r => (r.1, r.2.1, smv d r.2.2)) := by
  unfold forceStage
  refine bind_mv (precalc_mv pp d a) (fun ⟨cells, X0, rb⟩ => ?_)
  refine bind_mv (allRates_mv pp d a rb cells) (fun ⟨R, cs⟩ => ?_)
  refine bind_same rfl (fun rate => ?_)
  refine bind_same rfl (fun dt => ?_)
  refine bind_same rfl (fun R => ?_)
  exact bind_mv (applyRates_mv d a dt R cs) (fun st => rfl)

end rates

section repair
variable (pp : PhysPars K) (d : K)

theorem edge_mv (st : MorSt K) : edgeCheck (smv d st) = (edgeCheck st).map (smv d) := by
  unfold edgeCheck
  refine bind_mv (ixGet_map _ _ _) (fun c => ?_)
  exact bind_mv (pyGet_map _ _ _) (fun c' => rfl)

theorem overwashRepair_mv (cells : List (Cell K)) : overwashRepair (cells.map (cmv d)) = (overwashRepair cells).map (List.map (cmv d)) := by
  unfold overwashRepair
  have h1 : ((cells.map (cmv d)).filter negWidth).map overwashOf = (cells.filter negWidth).map overwashOf := by
    rw [filter_mv (negWidth_mv d), map_same (overwashOf_mv d)]
  have h2 : (cells.map (cmv d)).map overwashCell = (cells.map overwashCell).map (cmv d) := map_mv (overwash_mv d) cells
  rw [h1, h2]
  refine bind_same rfl (fun _ => bind_same rfl (fun _ => ?_))
  simp only
  split
  · show Except.ok _ = Except.ok _
    congr 1
    refine map_mv (fun c => ?_) _
    simp only [cmv, moveT, sh_isnan]
  · rfl

theorem cellIx_mv (cells : List (Cell K)) (e0 e1 : Fl K) : cellIx (cells.map (cmv d)) e0 e1 = cellIx cells e0 e1 := by
  have : (cells.map (cmv d)).map (·.t) = (cells.map (·.t)).map (moveT d) := by
    rw [map_map, map_map]; rfl
  unfold cellIx outletIx
  rw [this]
  simp only [whereIx_map]
  rfl

theorem extendChan_mv (st : MorSt K) (m : Transect K → Bool) (hm : ∀ t, m (moveT d t) = m t) : extendChan pp (smv d st) m = (extendChan pp st m).map (smv d) := by
  unfold extendChan
  have h1 : (smv d st).cells.any (fun c => m c.t) = st.cells.any (fun c => m c.t) := any_mv (f := cmv d) (g := fun c => m c.t) (fun c => hm c.t) _
  have h2 : (smv d st).cells.map (fun c => if m c.t then elongCell pp (smv d st) c else c) = (st.cells.map (fun c => if m c.t then elongCell pp st c else c)).map (cmv d) := by
    refine map_mv (fun c => ?_) _
    show (if m (moveT d c.t) = true then _ else _) = _
    rw [hm, apply_ite (cmv d)]
    congr 1
    exact elong_mv pp d st c
  simp only [h1, h2]
  split
  · rfl
  · show Except.ok _ = Except.ok _
    unfold smv
    simp only [cellIx_mv]

theorem elongate_mv (C : Bool) (st : MorSt K) : elongate pp C (smv d st) = (elongate pp C st).map (smv d) := by
  unfold elongate
  split
  · rfl
  · refine bind_same rfl (fun last => ?_)
    refine bind_mv (ixGet_map _ _ _) (fun c => ?_)
    show (if (st.e0 <? st.e1) = true then _ else _) = Except.map _ (if (st.e0 <? st.e1) = true then _ else _)
    split
    · refine bind_mv (ixGet_map _ _ _) (fun c' => ?_)
      show (if (fin c'.t.x ≤? st.e1) = true then _ else _) = Except.map _ (if (fin c'.t.x ≤? st.e1) = true then _ else _)
      split
      · exact extendChan_mv pp d st _ (fun _ => rfl)
      · rfl
    · refine bind_mv (g := cmv d) ?_ (fun c' => ?_)
      · show ixGet (st.cells.map (cmv d)) (prevIx (st.cells.map (cmv d)).length last) = _
        rw [length_map, ixGet_map]
      show (if (st.e1 ≤? fin c'.t.x) = true then _ else _) = Except.map _ (if (st.e1 ≤? fin c'.t.x) = true then _ else _)
      split
      · exact extendChan_mv pp d st _ (fun _ => rfl)
      · rfl

theorem seaPrevent_mv (C : Bool) (st : MorSt K) : seaPrevent C (smv d st) = (seaPrevent C st).map (smv d) := by
  unfold seaPrevent
  split
  · rfl
  · refine bind_same rfl (fun i => ?_)
    refine bind_mv (ixGet_map _ _ _) (fun c => ?_)
    show (if (sh d c.t.y0 ≤? sh d c.t.y1) = true then _ else _) = _
    rw [sh_ble]
    split
    · show Except.ok _ = Except.ok _
      unfold smv
      simp only
      rw [modify_mv (seaPreventCell_mv d)]
    · rfl

theorem ixWhere_mv (cells : List (Cell K)) (ix : List ℕ) (p : Transect K → Bool) (hp : ∀ t, p (moveT d t) = p t) :
    ixWhere (cells.map (cmv d)) ix p = ixWhere cells ix p := by
  unfold ixWhere
  apply filter_congr
  intro i _
  rw [getElem?_map]
  cases cells[i]? with
  | none => rfl
  | some c => exact hp c.t

theorem extendList_mv (cells : List (Cell K)) (ext : List ℕ) : modifyIf (fun j => ext.contains j) (fun _ => extendCell) (cells.map (cmv d)) =
    (modifyIf (fun j => ext.contains j) (fun _ => extendCell) cells).map (cmv d) := by
  unfold modifyIf
  refine mapIdx_mv (fun i c => ?_) _
  simp only [apply_ite (cmv d), extendCell_mv]

theorem lagoonTrunc_mv (st : MorSt K) : lagoonTrunc (smv d st) = (lagoonTrunc st).map (smv d) := by
  unfold lagoonTrunc
  show (if st.ix.length ≤ 1 then _ else _) = _
  split
  · rfl
  · have h1 : ixWhere (smv d st).cells (smv d st).ix.dropLast (fun t => t.y2 ≤? t.y3) = ixWhere st.cells st.ix.dropLast (fun t => t.y2 ≤? t.y3) :=
      ixWhere_mv d _ _ _ (fun t => sh_ble d _ _)
    rw [h1]
    split
    · rfl
    · rename_i i _ _
      refine bind_mv (ixGet_map _ _ _) (fun c => ?_)
      refine bind_mv (g := cmv d) ?_ (fun nb => ?_)
      · show (if (st.e0 <? st.e1) = true then _ else _) = Except.map _ (if (st.e0 <? st.e1) = true then _ else _)
        split
        · exact ixGet_map _ _ _
        · show ixGet (st.cells.map (cmv d)) (prevIx (st.cells.map (cmv d)).length i) = _
          rw [length_map, ixGet_map]
      have h2 : cellIx (smv d st).cells (fin (cmv d nb).t.x) (smv d st).e1 = cellIx st.cells (fin nb.t.x) st.e1 := cellIx_mv d _ _ _
      simp only [h2]
      refine bind_same rfl (fun _ => ?_)
      show (if (sh d c.t.y2 ≤? sh d c.t.y4) = true then _ else _) = _
      rw [sh_ble]
      split
      · refine bind_same ?_ (fun ext => ?_)
        · show (if (fin 0 <? fin c.t.x) = true then _ else _) = _
          have hp : (fun c : Cell K => (cmv d c).t.y4 <? (cmv d c).t.y3) = (fun c : Cell K => c.t.y4 <? c.t.y3) := funext (fun c => sh_blt d _ _)
          split
          · show (lastIx _ (st.cells.map (cmv d)) >>= _) = _
            rw [lastIx_map, hp]
          · show (firstIx _ (st.cells.map (cmv d)) >>= _) = _
            rw [firstIx_map, hp]
        · show Except.ok _ = Except.ok _
          unfold smv
          simp only [extendList_mv]
          rfl
      · rfl

theorem seaTrunc_mv (Dx : K) (st : MorSt K) : seaTrunc Dx (smv d st) = (seaTrunc Dx st).map (smv d) := by
  unfold seaTrunc
  show (if st.ix.length ≤ 1 then _ else _) = _
  split
  · rfl
  · have h1 : ∀ ix, ixWhere (smv d st).cells ix (fun t => t.y0 ≤? t.y1) = ixWhere st.cells ix (fun t => t.y0 ≤? t.y1) :=
      fun ix => ixWhere_mv d _ _ _ (fun t => sh_ble d _ _)
    simp only [h1, show (smv d st).ix = st.ix from rfl, show (smv d st).e0 = st.e0 from rfl, show (smv d st).e1 = st.e1 from rfl]
    split
    · rfl
    · split
      · refine bind_same rfl (fun i => ?_)
        refine bind_mv (ixGet_map _ _ _) (fun c => ?_)
        show Except.ok _ = Except.ok _
        unfold smv
        simp only [whereIx_map]
        rfl
      · refine bind_same rfl (fun i => ?_)
        refine bind_mv (ixGet_map _ _ _) (fun c => ?_)
        show Except.ok _ = Except.ok _
        unfold smv
        simp only [whereIx_map]
        rfl

theorem lagoonPrevent_mv (C : Bool) (st : MorSt K) : lagoonPrevent pp C (smv d st) = (lagoonPrevent pp C st).map (smv d) := by
  unfold lagoonPrevent
  split
  · rfl
  · refine bind_same rfl (fun i => ?_)
    refine bind_mv (ixGet_map _ _ _) (fun c => ?_)
    show (if (sh d c.t.y2 ≤? sh d c.t.y3) = true then _ else _) = _
    rw [sh_ble]
    split
    · show Except.ok _ = Except.ok _
      unfold smv
      simp only
      rw [modify_mv (lagoonPreventCell_mv pp d)]
    · rfl

theorem repairStage_mv (C : Bool) (Dx : K) (st : MorSt K) : repairStage pp C Dx (smv d st) = (repairStage pp C Dx st).map (smv d) := by
  unfold repairStage
  refine bind_mv (edge_mv d st) (fun s1 => ?_)
  refine bind_mv (g := List.map (cmv d)) ?_ (fun cs => ?_)
  · show overwashRepair ((s1.cells.map (cmv d)).map (cliffCell pp)) = _
    rw [map_mv (cliff_mv pp d), overwashRepair_mv]
  refine bind_mv (g := smv d) (elongate_mv pp d C { s1 with cells := cs }) (fun s2 => ?_)
  refine bind_mv (seaPrevent_mv d C s2) (fun s3 => ?_)
  refine bind_mv (lagoonTrunc_mv d s3) (fun s4 => ?_)
  refine bind_mv (seaTrunc_mv d Dx s4) (fun s5 => ?_)
  exact lagoonPrevent_mv pp d C s5

end repair

section breach
variable (pp : PhysPars K) (d : K)

theorem mergeLagoon_mv (j : ℕ → Bool) (cells : List (Cell K)) : mergeLagoon j (cells.map (cmv d)) = (mergeLagoon j cells).map (cmv d) := by
  unfold mergeLagoon
  refine mapIdx_mv (fun i c => ?_) _
  rw [lagoonHit_mv, apply_ite (cmv d)]
  congr 1
  exact mergeLagoonCell_mv d c

theorem walk_mv (dir : ℤ) : ∀ (f : ℕ) (c : ℤ) (cells : List (Cell K)),
    walk pp dir f c (cells.map (cmv d)) = (walk pp dir f c cells).map (fun r => (r.1, r.2.map (cmv d)))
  | 0, _, _ => rfl
  | f + 1, c, cells => by
    unfold walk
    rw [length_map]
    split
    · rfl
    · rename_i j _
      refine bind_mv (ixGet_map _ _ _) (fun nxt => ?_)
      rw [wideEnough_mv]
      split
      · split
        · rfl
        · refine bind_mv (ixGet_map _ _ _) (fun cur => ?_)
          have hm : ((cells.map (cmv d)).modify j fun x => { x with wl := (cmv d cur).wl }) = (cells.modify j fun x => { x with wl := cur.wl }).map (cmv d) :=
            modify_mv (f := cmv d) (g := fun x => { x with wl := (cmv d cur).wl }) (g' := fun x => { x with wl := cur.wl }) (fun _ => rfl) _ _
          rw [hm]
          exact walk_mv dir f _ _
      · rfl

theorem connStart_mv (C : Bool) (X0 : ℕ) (st : MorSt K) : connStart pp C X0 (smv d st) = connStart pp C X0 st := by
  unfold connStart
  split
  · rfl
  · show (if (!st.e0.isnan) = true then _ else _) = _
    split
    · have h1 : (smv d st).cells.map (fun c => (fin c.t.x - (smv d st).e0).abs) = st.cells.map (fun c => (fin c.t.x - st.e0).abs) := map_same (fun _ => rfl) _
      simp only [h1]
      refine bind_cong (ixGet_map _ _ _) (fun c => ?_)
      rw [wideEnough_mv]
      show (if _ then _ else if (!((List.take _ (st.cells.map (cmv d))).drop _).all _) = true then _ else _) = _
      rw [← map_take, ← map_drop, all_mv (f := cmv d) (g := fun c : Cell K => c.lo) (g' := fun c : Cell K => c.lo) (fun _ => rfl)]
      rfl
    · rfl

theorem connected_mv (C : Bool) (X0 : ℕ) (st : MorSt K) : connected pp C X0 (smv d st) = (connected pp C X0 st).map (fun r => (r.1, smv d r.2)) := by
  unfold connected
  refine bind_same (connStart_mv pp d C X0 st) (fun ⟨mm, e0⟩ => ?_)
  have hn : ∀ cells : List (Cell K), (cells.map (cmv d)).any (fun c => c.wl.isnan) = cells.any (fun c => c.wl.isnan) := fun cells => any_mv (fun _ => rfl) _
  cases mm with
  | none =>
    refine bind_same ?_ (fun _ => rfl)
    exact congrArg pyAssert (congrArg not (hn _))
  | some p =>
    obtain ⟨lo, hi⟩ := p
    simp only
    rw [show (smv d st).cells.length = st.cells.length from length_map _]
    refine bind_mv (walk_mv pp d _ _ _ _) (fun ⟨l1, c1⟩ => ?_)
    refine bind_mv (walk_mv pp d _ _ _ _) (fun ⟨l2, c2⟩ => ?_)
    exact bind_same (congrArg pyAssert (congrArg not (hn _))) (fun _ => rfl)

theorem relicBreach_mv (C : Bool) (conn : Option (ℤ × ℤ)) (e0 : Fl K) (hit : List Bool) (cells : List (Cell K)) :
    relicBreach C conn e0 hit (cells.map (cmv d)) = relicBreach C conn e0 hit cells := by
  unfold relicBreach
  simp only [length_map]
  split
  · refine bind_cong (gather_mv _ _ _) (fun cs => ?_)
    rw [map_same (f := cmv d) (g := fun c : Cell K => (fin c.t.x - e0).abs) (g' := fun c : Cell K => (fin c.t.x - e0).abs) (fun _ => rfl)]
  · rfl

theorem mergeShore_mv (j : ℕ → Bool) (C : Bool) (conn : Option (ℤ × ℤ)) (st : MorSt K) :
    mergeShore pp j C conn (smv d st) = (mergeShore pp j C conn st).map (fun r => (r.1, smv d r.2)) := by
  unfold mergeShore
  have h1 : (smv d st).cells.mapIdx (shoreHit j) = st.cells.mapIdx (shoreHit j) := by
    apply ext_getElem?
    intro i
    simp only [smv, getElem?_mapIdx, getElem?_map, Option.map_map]
    cases st.cells[i]? with
    | none => rfl
    | some c => exact congrArg some (shoreHit_mv d j i c)
  rw [h1]
  simp only
  split
  · rfl
  · refine bind_same (relicBreach_mv d C conn _ _ _) (fun b => ?_)
    rw [show (smv d st).cells.length = st.cells.length from length_map _]
    have hz : ∀ hit : List Bool, ((smv d st).cells.zip hit).map (fun (c, h) => if h then mergeShoreCell pp c else c) =
        ((st.cells.zip hit).map (fun (c, h) => if h then mergeShoreCell pp c else c)).map (cmv d) := by
      intro hit
      apply ext_getElem?
      intro i
      simp only [smv, getElem?_map, zip, zipWith_map_left, getElem?_zipWith]
      cases st.cells[i]? with
      | none => rfl
      | some c =>
        cases hit[i]? with
        | none => rfl
        | some h =>
          show some (if h = true then _ else _) = some (cmv d (if h = true then _ else _))
          rw [apply_ite (cmv d), mergeShoreCell_mv]
    simp only [hz]
    cases b with
    | none =>
      simp only
      split
      · rfl
      · rfl
    | some b =>
      simp only
      split
      · rfl
      · rfl

theorem absX_mv (cells : List (Cell K)) (ix : List ℕ) : absX (cells.map (cmv d)) ix = absX cells ix := by
  unfold absX
  congr 1
  funext i
  rw [getElem?_map]
  cases cells[i]? <;> rfl

theorem erosionDecide_mv (C : Bool) (b : Option ℕ) (e0 : Fl K) (cells : List (Cell K)) (ero poss : List ℕ) :
    erosionDecide C b e0 (cells.map (cmv d)) ero poss = erosionDecide C b e0 cells ero poss := by
  unfold erosionDecide
  simp only [absX_mv]

theorem erosionBreach_mv (C : Bool) (X0 : ℕ) (b : Option ℕ) (st : MorSt K) :
    erosionBreach C X0 b (smv d st) = (erosionBreach C X0 b st).map (fun r => (r.1, smv d r.2)) := by
  unfold erosionBreach
  have h1 : whereIx (fun c : Cell K => eroded c.t) (smv d st).cells = whereIx (fun c : Cell K => eroded c.t) st.cells :=
    (whereIx_map _ _ _).trans (whereIx_congr (fun c : Cell K => eroded_mv d c.t) _)
  have h2 : (smv d st).cells.map (fun c => c.lo) = st.cells.map (fun c => c.lo) := map_same (f := cmv d) (fun _ => rfl) _
  simp only [h1, h2]
  split
  · rfl
  · refine bind_same (erosionDecide_mv d C b _ _ _ _) (fun ⟨b, rest⟩ => ?_)
    show Except.ok _ = Except.ok _
    unfold smv modifyIf
    simp only
    rw [mapIdx_mv (g' := fun i c => if rest.contains i then restoreCell c else c) (fun i c => ?_)]
    rw [apply_ite (cmv d)]
    congr 1
    exact restoreCell_mv d c

theorem overtopBreach_mv (C : Bool) (X0 : ℕ) (conn : Option (ℤ × ℤ)) (b : Option ℕ) (st : MorSt K) :
    overtopBreach pp C X0 conn b (smv d st) = (overtopBreach pp C X0 conn b st).map (fun r => (r.1, smv d r.2)) := by
  unfold overtopBreach
  have h0 : (smv d st).cells.map crestCell = (st.cells.map crestCell).map (cmv d) := map_mv (crestCell_mv d) _
  rw [h0]
  generalize st.cells.map crestCell = cs
  have h1 : (cs.map (cmv d)).any (fun c => c.t.z0.isnan) = cs.any (fun c => c.t.z0.isnan) := any_mv (fun _ => rfl) _
  have h2 : whereIx (fun c : Cell K => c.t.z0 <? c.wl) (cs.map (cmv d)) = whereIx (fun c : Cell K => c.t.z0 <? c.wl) cs := whereIx_map _ _ _
  have h3 : (cs.map (cmv d)).map (fun c => fin pp.MinOutletWidth <? (c.t.y3 - c.t.y4)) = cs.map (fun c => fin pp.MinOutletWidth <? (c.t.y3 - c.t.y4)) :=
    map_same (fun c => by simp only [cmv, moveT, sh_sub_sh]) _
  simp only [h1, h2, h3]
  refine bind_same rfl (fun _ => ?_)
  split
  · rfl
  · split
    · split <;> rfl
    · refine bind_mv (gather_mv _ _ _) (fun gs => ?_)
      rw [map_same (f := cmv d) (g := fun c : Cell K => c.wl - c.t.z0) (g' := fun c : Cell K => c.wl - c.t.z0) (fun _ => rfl)]
      exact bind_same rfl (fun k => rfl)

theorem createBreach_mv (conn : Option (ℤ × ℤ)) (b : Option ℕ) (st : MorSt K) : createBreach pp conn b (smv d st) = (createBreach pp conn b st).map (smv d) := by
  unfold createBreach
  split
  · rfl
  · refine bind_mv (ixGet_map _ _ _) (fun c => ?_)
    rw [show (smv d st).cells.length = st.cells.length from length_map _]
    split
    · rfl
    · show Except.ok _ = Except.ok _
      unfold smv
      simp only
      rw [modify_mv (breachCell_mv pp d _ _)]
      rfl

theorem breachStage_mv (j1 j2 : ℕ → Bool) (C : Bool) (X0 : ℕ) (st : MorSt K) :
    breachStage pp j1 j2 C X0 (smv d st) = (breachStage pp j1 j2 C X0 st).map (fun r => (r.1, smv d r.2)) := by
  unfold breachStage
  have h0 : ({ smv d st with cells := mergeLagoon j1 (smv d st).cells } : MorSt K) = smv d { st with cells := mergeLagoon j1 st.cells } := by
    unfold smv
    simp only [mergeLagoon_mv]
  simp only [h0]
  refine bind_mv (connected_mv pp d C X0 _) (fun ⟨conn, s1⟩ => ?_)
  refine bind_mv (mergeShore_mv pp d j2 C conn s1) (fun ⟨b1, s2⟩ => ?_)
  refine bind_mv (erosionBreach_mv d C X0 b1 s2) (fun ⟨b2, s3⟩ => ?_)
  refine bind_mv (overtopBreach_mv pp d C X0 conn b2 s3) (fun ⟨b3, s4⟩ => ?_)
  exact bind_mv (createBreach_mv pp d conn b3 s4) (fun s5 => rfl)

theorem finishStage_mv (X0 : ℕ) (st : MorSt K) : finishStage pp X0 (smv d st) = (finishStage pp X0 st).map (smv d) := by
  unfold finishStage
  have h0 : (smv d st).cells.modify X0 (keepCell pp) = (st.cells.modify X0 (keepCell pp)).map (cmv d) := modify_mv (keepCell_mv pp d) _ _
  rw [h0]
  generalize st.cells.modify X0 (keepCell pp) = cs
  refine bind_same (congrArg pyAssert (all_mv (fun c => by simp only [cmv, moveT, sh_isnan]) _)) (fun _ => ?_)
  refine bind_same (congrArg pyAssert (all_mv (fun c => by simp only [cmv, moveT, sh_isnan]) _)) (fun _ => ?_)
  exact bind_same (congrArg pyAssert (all_mv (fun c => by simp only [cmv, moveT, sh_isnan]) _)) (fun _ => rfl)

theorem update_mv (j1 j2 : ℕ → Bool) (a : MorIn K) : updateMorphology pp j1 j2 (imv d a) = (updateMorphology pp j1 j2 a).map (moveMor d) := by
  unfold updateMorphology
  refine bind_mv (forceStage_mv pp d a) (fun ⟨dt, X0, s0⟩ => ?_)
  refine bind_mv (repairStage_mv pp d _ _ s0) (fun s1 => ?_)
  refine bind_mv (breachStage_mv pp d j1 j2 _ X0 s1) (fun ⟨b, s2⟩ => ?_)
  refine bind_mv (finishStage_mv pp d X0 s2) (fun s3 => ?_)
  show Except.ok _ = Except.ok _
  unfold smv moveMor moveRows
  simp only [map_map]
  rfl

end breach

end Verif.Model
