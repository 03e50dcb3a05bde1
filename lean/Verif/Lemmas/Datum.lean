import Verif.Spec.Datum
import Verif.Lemmas.Moved

set_option autoImplicit false
set_option linter.unusedSectionVars false

/-! # Another vertical datum: morphology -/

namespace Verif.Model
open Verif Fl List Spec

variable {K : Type} [Field K] [LinearOrder K] [IsStrictOrderedRing K]

section fl
variable (d : K) (a b : Fl K)

theorem fin_sh (x : K) : (fin (x + d) : Fl K) = sh d (fin x) := rfl
theorem add_sh : a + sh d b = sh d (a + b) := by
  unfold sh; cases a <;> cases b <;> first | rfl | (simp; ring)
theorem drop_sh (x : K) : fin (x - d) + sh d a = fin x + a := by
  unfold sh; cases a <;> first | rfl | (simp)
theorem sh_drop (x : K) : sh d a + fin (x - d) = a + fin x := by
  unfold sh; cases a <;> first | rfl | (simp)
theorem sh_npmax : npmax (sh d a) (sh d b) = sh d (npmax a b) := by
  unfold npmax; simp only [sh_isnan, sh_blt]; split
  · rfl
  · split
    · rfl
    · split <;> rfl
theorem sh_pymax : pymax (sh d a) (sh d b) = sh d (pymax a b) := by
  unfold pymax; rw [sh_blt]; split <;> rfl
theorem half_fin (x : Fl K) : fin (1 / 2) * sh d x = fin (1 / 2) * x + fin (d / 2) := by
  have h2 : (1 / 2 : K) ≠ 0 := by norm_num
  unfold sh
  cases x with
  | fin x => simp; ring
  | nan => rfl
  | pinf => show infOfSign _ = infOfSign _ + _; unfold infOfSign; rw [if_neg h2]; split <;> rfl
  | ninf => show infOfSign _ = infOfSign _ + _; unfold infOfSign; rw [if_neg (neg_ne_zero.mpr h2)]; split <;> rfl
theorem sh_halves : fin (1 / 2) * sh d a + fin (1 / 2) * sh d b = sh d (fin (1 / 2) * a + fin (1 / 2) * b) := by
  rw [half_fin, half_fin]
  generalize fin (1 / 2) * a = u
  generalize fin (1 / 2) * b = v
  unfold sh
  cases u <;> cases v <;> first | rfl | (simp; ring)

/-- The level stored for a transect without water. -/
def dry : Fl K := fin (-99999 / 10)

/-- A stored water level, lifted: the mark of a dry transect stays. -/
def gl (v : Fl K) : Fl K := if v = dry then dry else sh d v

theorem gl_isnan : (gl d a).isnan = a.isnan := by
  unfold gl
  split
  · rename_i h; rw [h]
  · exact sh_isnan d a
theorem gl_wet {v : Fl K} (h : v ≠ dry) : gl d v = sh d v := if_neg h
theorem gl_dry : gl d (dry : Fl K) = dry := if_pos rfl

end fl

/-- A transect with derived quantities, lifted. -/
def clf (d : K) (c : Cell K) : Cell K := { c with t := liftT d c.t, wl := gl d c.wl }
/-- Arguments of the update, lifted. -/
def ilf (d : K) (a : MorIn K) : MorIn K := { a with rows := liftRows d a.rows, EndElev := sh d a.EndElev, RiverElev := a.RiverElev.map (sh d), LagoonWL := a.LagoonWL.map (sh d) }
/-- State during the update, lifted. -/
def slf (d : K) (s : MorSt K) : MorSt K := { s with cells := s.cells.map (clf d), endZ := sh d s.endZ, riv := s.riv.map (sh d) }

section cell
variable (pp : PhysPars K) (d : K)

/-- No water level is by chance the mark of a dry transect. -/
structure NoMark (a : MorIn K) : Prop where
  lagoon : ∀ v ∈ a.LagoonWL, v ≠ dry
  outlet : ∀ (i : ℕ) (r : Transect K) (v : Fl K), a.rows[i]? = some r → a.OutletDep[i]? = some v → v + r.z1 ≠ dry

theorem mkCell_lf (a : MorIn K) (h : NoMark a) (i : ℕ) (r : Transect K) (hr : a.rows[i]? = some r) :
    mkCell (liftPars d pp) (ilf d a) i (liftT d r) = clf d (mkCell pp a i r) := by
  have h1 : (a.OutletDep[i]?).getD nan + r.z1 ≠ dry := by
    cases hv : a.OutletDep[i]? with
    | none => simp [dry]
    | some v => exact h.outlet i r v hr hv
  have h2 : (a.LagoonWL[i]?).getD nan ≠ dry := by
    cases hv : a.LagoonWL[i]? with
    | none => simp [dry]
    | some v => exact h.lagoon v (mem_of_getElem? hv)
  have h3 : ((a.LagoonWL.map (sh d))[i]?).getD nan = sh d ((a.LagoonWL[i]?).getD nan) := by
    rw [getElem?_map]
    cases a.LagoonWL[i]? <;> rfl
  unfold mkCell ilf clf liftT liftPars
  simp only [sh_sub_sh, drop_sh, h3]
  congr 1
  rw [apply_ite (gl d), apply_ite (gl d), gl_wet d h1, gl_wet d h2, add_sh]
  rw [show (fin (-99999 / 10) : Fl K) = dry from rfl, gl_dry]

theorem cliff_lf (c : Cell K) : cliffCell (liftPars d pp) (clf d c) = clf d (cliffCell pp c) := by
  unfold cliffCell
  simp only [clf, liftT, liftPars, fin_sh, sh_sub_sh]
  split <;> rfl

theorem negWidth_lf (c : Cell K) : negWidth (clf d c) = negWidth c := rfl

theorem overwashOf_lf (c : Cell K) : overwashOf (clf d c) = overwashOf c := by
  simp only [overwashOf, clf, liftT, sh_sub_sh]

theorem overwash_lf (c : Cell K) : overwashCell (clf d c) = clf d (overwashCell c) := by
  unfold overwashCell
  rw [negWidth_lf, overwashOf_lf]
  simp only [clf, liftT]
  split
  · split_ifs <;> simp only [sh_add, sh_npmax, sh_nan]
  · rfl

theorem elong_lf (st : MorSt K) (c : Cell K) : elongCell (liftPars d pp) (slf d st) (clf d c) = clf d (elongCell pp st c) := rfl

theorem seaPreventCell_lf (c : Cell K) : seaPreventCell (clf d c) = clf d (seaPreventCell c) := by
  simp only [seaPreventCell, clf, liftT, sh_sub_sh]

theorem extendCell_lf (c : Cell K) : extendCell (clf d c) = clf d (extendCell c) := rfl

theorem lagoonPreventCell_lf (c : Cell K) : lagoonPreventCell (liftPars d pp) (clf d c) = clf d (lagoonPreventCell pp c) := by
  unfold lagoonPreventCell
  simp only [clf, liftT, liftPars, fin_sh, sh_sub_sh]
  split <;> rfl

theorem wideEnough_lf (c : Cell K) : wideEnough (liftPars d pp) (clf d c) = wideEnough pp c := rfl

theorem lagoonHit_lf (j : ℕ → Bool) (i : ℕ) (c : Cell K) : lagoonHit j i (clf d c) = lagoonHit j i c := rfl

theorem shoreHit_lf (j : ℕ → Bool) (i : ℕ) (c : Cell K) : shoreHit j i (clf d c) = shoreHit j i c := rfl

theorem mergeShoreCell_lf (c : Cell K) : mergeShoreCell (liftPars d pp) (clf d c) = clf d (mergeShoreCell pp c) := by
  simp only [mergeShoreCell, clf, liftT, liftPars, sh_sub_sh, sh_drop, sh_nan]

theorem eroded_lf (t : Transect K) : eroded (liftT d t) = eroded t := rfl

theorem restoreCell_lf (c : Cell K) : restoreCell (clf d c) = clf d (restoreCell c) := by
  simp only [restoreCell, clf, liftT, sh_sub_sh]

theorem crestCell_lf (c : Cell K) : crestCell (clf d c) = clf d (crestCell c) := by
  unfold crestCell
  by_cases h : c.op = true
  · rw [if_pos h, if_pos (show (clf d c).op = true from h)]
    simp only [clf, liftT, sh_npmax]
  · rw [if_neg h, if_neg (show ¬ (clf d c).op = true from h)]

theorem breachCell_lf (w z : Fl K) (c : Cell K) : breachCell (liftPars d pp) w (sh d z) (clf d c) = clf d (breachCell pp w z c) := by
  have h := sh_halves d z c.t.z3
  simp only [breachCell, clf, liftT, liftPars]
  rw [h]
  rfl

theorem keepCell_lf (c : Cell K) : keepCell (liftPars d pp) (clf d c) = clf d (keepCell pp c) := by
  unfold keepCell
  rw [apply_ite (clf d)]
  rfl

end cell

section rates
variable (pp : PhysPars K) (d : K)

theorem precalc_lf (a : MorIn K) (h : NoMark a) : precalc (liftPars d pp) (ilf d a) = (precalc pp a).map (fun r => (r.1.map (clf d), r.2)) := by
  unfold precalc
  refine bind_same (firstIx_map _ _ _) (fun X0 => ?_)
  refine bind_same ?_ (fun rb => ?_)
  · show (if a.Closed = true then _ else _) = _
    congr 1
    exact firstIx_map _ _ _
  have hl : (ilf d a).rows.length = a.rows.length := length_map _
  have hm : (ilf d a).rows.mapIdx (mkCell (liftPars d pp) (ilf d a)) = (a.rows.mapIdx (mkCell pp a)).map (clf d) := by
    apply ext_getElem?
    intro j
    simp only [ilf, liftRows, getElem?_mapIdx, getElem?_map, Option.map_map]
    cases hr : a.rows[j]? with
    | none => rfl
    | some r => exact congrArg some (mkCell_lf pp d a h j r hr)
  rw [hl, hm]
  simp only [show (ilf d a).LagoonWL.length = a.LagoonWL.length from length_map _, show (ilf d a).OutletDep = a.OutletDep from rfl, show (ilf d a).Closed = a.Closed from rfl,
    show (ilf d a).outlet = a.outlet from rfl]
  split
  · rfl
  · split
    · rfl
    · refine bind_same (congrArg pyAssert (congrArg not (any_mv (f := clf d) (fun c : Cell K => gl_isnan d c.wl) _))) (fun _ => ?_)
      exact bind_same (congrArg pyAssert (all_mv (fun c => rfl) _)) (fun _ => rfl)

theorem addCol_lf (l : List (Fl K)) (ixs : List ℕ) (ss : List (Sec K)) (rs : List (Transect K)) {f f' : Sec K → Transect K → Fl K}
    (h : ∀ s r, f' s (liftT d r) = f s r) : addCol l ixs ss (rs.map (liftT d)) f' = addCol l ixs ss rs f := by
  unfold addCol
  rw [zipWith_map_right, show (fun a b => f' a (liftT d b)) = f from funext (fun s => funext (fun r => h s r))]

theorem lagBank_lf (r : Transect K) : lagBank (liftT d r) = sh d (lagBank r) := (apply_ite (sh d) _ _ _).symm

theorem riverRates_lf (a : MorIn K) (cells : List (Cell K)) : riverRates (liftPars d pp) (ilf d a) (cells.map (clf d)) = riverRates pp a cells := by
  unfold riverRates
  have hl : (ilf d a).rows.length = a.rows.length := length_map _
  rw [hl]
  refine bind_cong' rfl (fun ss => ?_)
  refine bind_cong (gather_mv _ _ _) (fun onRows => ?_)
  refine bind_cong' (addCol_lf d _ _ _ _ (fun s r => rfl)) (fun z3 => ?_)
  refine bind_cong' (addCol_lf d _ _ _ _ (fun s r => by simp only [lagBank_lf]; simp only [liftT, sh_sub_sh]; rfl)) (fun y3 => ?_)
  refine bind_cong' (addCol_lf d _ _ _ _ (fun s r => by simp only [liftT, liftPars, fin_sh, sh_sub_sh]; rfl)) (fun y4 => ?_)
  show (if a.Closed = true then _ else _) = _
  congr 1
  refine bind_cong (gather_mv _ _ _) (fun outRows => ?_)
  refine bind_cong' (addCol_lf d _ _ _ _ (fun s r => rfl)) (fun z1 => ?_)
  refine bind_cong' (addCol_lf d _ _ _ _ (fun s r => by simp only [liftT, sh_sub_sh]; rfl)) (fun y1 => ?_)
  refine bind_cong' (addCol_lf d _ _ _ _ (fun s r => by simp only [liftT, sh_sub_sh]; rfl)) (fun y2 => ?_)
  refine bind_cong' rfl (fun e => ?_)
  refine bind_cong' rfl (fun bl => ?_)
  have he : fin (liftPars d pp).BeachTopElev - (ilf d a).EndElev = fin pp.BeachTopElev - a.EndElev := sh_sub_sh d (fin pp.BeachTopElev) a.EndElev
  rw [map_map, he]
  rfl

theorem lstInterior_lf (a : MorIn K) (cells : List (Cell K)) (y0 : List (Fl K)) : lstInterior (ilf d a) (cells.map (clf d)) y0 = lstInterior a cells y0 := by
  unfold lstInterior
  simp only [length_map, show (ilf d a).LST = a.LST from rfl, show (ilf d a).Dx = a.Dx from rfl]
  congr 2
  apply ext_getElem?
  intro j
  simp only [getElem?_mapIdx, zip, zipWith_map_right, getElem?_zipWith]
  cases y0[j]? <;> cases cells[j]? <;> rfl

theorem lstRates_lf (a : MorIn K) (rb : ℕ) (cells : List (Cell K)) (R : Rates K) :
    lstRates (liftPars d pp) (ilf d a) rb (cells.map (clf d)) R = (lstRates pp a rb cells R).map (fun r => (r.1, r.2.map (clf d))) := by
  unfold lstRates
  refine bind_same (lstInterior_lf d a cells R.y0) (fun y0 => ?_)
  have he : fin (liftPars d pp).BeachTopElev - (ilf d a).EndElev = fin pp.BeachTopElev - a.EndElev := sh_sub_sh d (fin pp.BeachTopElev) a.EndElev
  simp only [length_map, he]
  show (if a.Closed = true then _ else _) = Except.map _ (if a.Closed = true then _ else _)
  split
  · rfl
  · refine bind_same rfl (fun l => ?_)
    split
    · refine bind_mv (ixGet_map _ _ _) (fun c => rfl)
    · refine bind_mv (ixGet_map _ _ _) (fun c => ?_)
      show Except.ok _ = Except.ok _
      congr 2
      refine modify_mv (fun c' => ?_) _ _
      rfl

theorem cstRates_lf (a : MorIn K) (cells : List (Cell K)) (R : Rates K) : cstRates (liftPars d pp) (ilf d a) (cells.map (clf d)) R = cstRates pp a cells R := by
  have key : ∀ (l : List (Fl K)) (f : ℕ → Fl K → Cell K → Fl K), (∀ i v c, f i v (clf d c) = f i v c) →
      (l.zip (cells.map (clf d))).mapIdx (fun i (v, c) => f i v c) = (l.zip cells).mapIdx (fun i (v, c) => f i v c) := by
    intro l f h
    apply ext_getElem?
    intro j
    simp only [getElem?_mapIdx, zip, zipWith_map_right, getElem?_zipWith]
    cases l[j]? <;> cases cells[j]? <;> first | rfl | exact congrArg some (h _ _ _)
  unfold cstRates
  simp only [length_map]
  show (if a.CST.length ≠ _ ∨ a.OverwashProp.length ≠ _ then _ else _) = _
  congr 2
  congr 1
  · exact key R.y0 (fun i v c => if 0 < i ∧ i + 1 < cells.length then v - (a.CST[i]?).getD nan / c.sfh else -(fin pp.ShorelineErosionRate) / fin 31557600) (fun _ _ _ => rfl)
  · exact key R.y1 (fun i v c => if c.op then v - (a.OverwashProp[i]?).getD nan * (a.CST[i]?).getD nan / c.bh else v) (fun _ _ _ => rfl)
  · exact key R.y3 (fun i v c => if c.op then v else v - (a.OverwashProp[i]?).getD nan * (a.CST[i]?).getD nan / c.bh) (fun _ _ _ => rfl)
  · exact key R.z0 (fun i v c => v + (fin 1 - (a.OverwashProp[i]?).getD nan) * (a.CST[i]?).getD nan / c.cw) (fun _ _ _ => rfl)

theorem applyRates_lf (a : MorIn K) (dt : ℤ) (R : Rates K) (cells : List (Cell K)) :
    applyRates (ilf d a) dt R (cells.map (clf d)) = (applyRates a dt R cells).map (slf d) := by
  unfold applyRates
  rw [show (ilf d a).RiverElev.length = a.RiverElev.length from length_map _]
  split
  · rfl
  · have h1 : (cells.map (clf d)).mapIdx (moveCell R (fin (secs dt : K))) = (cells.mapIdx (moveCell R (fin (secs dt : K)))).map (clf d) := by
      refine mapIdx_mv (fun i c => ?_) _
      simp only [moveCell, clf, liftT, sh_add]
    have h2 : (if a.Closed = true then sh d a.EndElev else sh d a.EndElev + R.endZ * fin (secs dt : K)) =
        sh d (if a.Closed = true then a.EndElev else a.EndElev + R.endZ * fin (secs dt : K)) := by
      rw [apply_ite (sh d), sh_add]
    have h3 : (a.RiverElev.map (sh d)).take 1 ++ zipWith (fun z r => z + r * fin (secs dt : K)) (a.RiverElev.map (sh d)).tail R.riv =
        (a.RiverElev.take 1 ++ zipWith (fun z r => z + r * fin (secs dt : K)) a.RiverElev.tail R.riv).map (sh d) := by
      rw [map_append, map_take, ← map_tail, zipWith_map_left, map_zipWith]
      simp only [sh_add]
    show Except.ok _ = Except.ok _
    unfold slf ilf
    simp only [h1, h2, h3]

theorem allRates_lf (a : MorIn K) (rb : ℕ) (cells : List (Cell K)) :
    allRates (liftPars d pp) (ilf d a) rb (cells.map (clf d)) = (allRates pp a rb cells).map (fun r => (r.1, r.2.map (clf d))) := by
  unfold allRates
  refine bind_same (riverRates_lf pp d a cells) (fun R => ?_)
  refine bind_mv (lstRates_lf pp d a rb cells R) (fun ⟨R, cs⟩ => ?_)
  exact bind_same (cstRates_lf pp d a cs R) (fun R => rfl)

theorem forceStage_lf (a : MorIn K) (h : NoMark a) : forceStage (liftPars d pp) (ilf d a) = (forceStage pp a).map (fun r => (r.1, r.2.1, slf d r.2.2)) := by
  unfold forceStage
  refine bind_mv (precalc_lf pp d a h) (fun ⟨cells, X0, rb⟩ => ?_)
  refine bind_mv (allRates_lf pp d a rb cells) (fun ⟨R, cs⟩ => ?_)
  refine bind_same rfl (fun rate => ?_)
  refine bind_same rfl (fun dt => ?_)
  refine bind_same rfl (fun R => ?_)
  exact bind_mv (applyRates_lf d a dt R cs) (fun st => rfl)

end rates

section repair
variable (pp : PhysPars K) (d : K)

theorem edge_lf (st : MorSt K) : edgeCheck (slf d st) = (edgeCheck st).map (slf d) := by
  unfold edgeCheck
  refine bind_mv (ixGet_map _ _ _) (fun c => ?_)
  exact bind_mv (pyGet_map _ _ _) (fun c' => rfl)

theorem overwashRepair_lf (cells : List (Cell K)) : overwashRepair (cells.map (clf d)) = (overwashRepair cells).map (List.map (clf d)) := by
  unfold overwashRepair
  have h1 : ((cells.map (clf d)).filter negWidth).map overwashOf = (cells.filter negWidth).map overwashOf := by
    rw [filter_mv (negWidth_lf d), map_same (overwashOf_lf d)]
  have h2 : (cells.map (clf d)).map overwashCell = (cells.map overwashCell).map (clf d) := map_mv (overwash_lf d) cells
  rw [h1, h2]
  refine bind_same rfl (fun _ => bind_same rfl (fun _ => ?_))
  simp only
  split
  · show Except.ok _ = Except.ok _
    congr 1
    refine map_mv (fun c => ?_) _
    simp only [clf, liftT, sh_isnan]
  · rfl

theorem cellIx_lf (cells : List (Cell K)) (e0 e1 : Fl K) : cellIx (cells.map (clf d)) e0 e1 = cellIx cells e0 e1 := by
  have : (cells.map (clf d)).map (·.t) = (cells.map (·.t)).map (liftT d) := by
    rw [map_map, map_map]; rfl
  unfold cellIx outletIx
  rw [this]
  simp only [whereIx_map]
  rfl

theorem extendChan_lf (st : MorSt K) (m : Transect K → Bool) (hm : ∀ t, m (liftT d t) = m t) : extendChan (liftPars d pp) (slf d st) m = (extendChan pp st m).map (slf d) := by
  unfold extendChan
  have h1 : (slf d st).cells.any (fun c => m c.t) = st.cells.any (fun c => m c.t) := any_mv (f := clf d) (g := fun c => m c.t) (fun c => hm c.t) _
  have h2 : (slf d st).cells.map (fun c => if m c.t then elongCell (liftPars d pp) (slf d st) c else c) = (st.cells.map (fun c => if m c.t then elongCell pp st c else c)).map (clf d) := by
    refine map_mv (fun c => ?_) _
    show (if m (liftT d c.t) = true then _ else _) = _
    rw [hm, apply_ite (clf d)]
    rfl
  simp only [h1, h2]
  split
  · rfl
  · show Except.ok _ = Except.ok _
    unfold slf
    simp only [cellIx_lf]

theorem elongate_lf (C : Bool) (st : MorSt K) : elongate (liftPars d pp) C (slf d st) = (elongate pp C st).map (slf d) := by
  unfold elongate
  split
  · rfl
  · refine bind_same rfl (fun last => ?_)
    refine bind_mv (ixGet_map _ _ _) (fun c => ?_)
    show (if (st.e0 <? st.e1) = true then _ else _) = Except.map _ (if (st.e0 <? st.e1) = true then _ else _)
    split
    · refine bind_mv (ixGet_map _ _ _) (fun c' => ?_)
      show (if (fin c'.t.x ≤? st.e1) = true then _ else _) = Except.map _ (if (fin c'.t.x ≤? st.e1) = true then _ else _)
      split
      · exact extendChan_lf pp d st _ (fun _ => rfl)
      · rfl
    · refine bind_mv (g := clf d) ?_ (fun c' => ?_)
      · show ixGet (st.cells.map (clf d)) (prevIx (st.cells.map (clf d)).length last) = _
        rw [length_map, ixGet_map]
      show (if (st.e1 ≤? fin c'.t.x) = true then _ else _) = Except.map _ (if (st.e1 ≤? fin c'.t.x) = true then _ else _)
      split
      · exact extendChan_lf pp d st _ (fun _ => rfl)
      · rfl

theorem seaPrevent_lf (C : Bool) (st : MorSt K) : seaPrevent C (slf d st) = (seaPrevent C st).map (slf d) := by
  unfold seaPrevent
  split
  · rfl
  · refine bind_same rfl (fun i => ?_)
    refine bind_mv (ixGet_map _ _ _) (fun c => ?_)
    show (if (c.t.y0 ≤? c.t.y1) = true then _ else _) = _
    split
    · show Except.ok _ = Except.ok _
      unfold slf
      simp only
      rw [modify_mv (seaPreventCell_lf d)]
    · rfl

theorem ixWhere_lf (cells : List (Cell K)) (ix : List ℕ) (p : Transect K → Bool) (hp : ∀ t, p (liftT d t) = p t) :
    ixWhere (cells.map (clf d)) ix p = ixWhere cells ix p := by
  unfold ixWhere
  apply filter_congr
  intro i _
  rw [getElem?_map]
  cases cells[i]? with
  | none => rfl
  | some c => exact hp c.t

theorem extendList_lf (cells : List (Cell K)) (ext : List ℕ) : modifyIf (fun j => ext.contains j) (fun _ => extendCell) (cells.map (clf d)) =
    (modifyIf (fun j => ext.contains j) (fun _ => extendCell) cells).map (clf d) := by
  unfold modifyIf
  refine mapIdx_mv (fun i c => ?_) _
  simp only [apply_ite (clf d), extendCell_lf]

theorem lagoonTrunc_lf (st : MorSt K) : lagoonTrunc (slf d st) = (lagoonTrunc st).map (slf d) := by
  unfold lagoonTrunc
  show (if st.ix.length ≤ 1 then _ else _) = _
  split
  · rfl
  · have h1 : ixWhere (slf d st).cells (slf d st).ix.dropLast (fun t => t.y2 ≤? t.y3) = ixWhere st.cells st.ix.dropLast (fun t => t.y2 ≤? t.y3) :=
      ixWhere_lf d _ _ _ (fun t => rfl)
    rw [h1]
    split
    · rfl
    · rename_i i _ _
      refine bind_mv (ixGet_map _ _ _) (fun c => ?_)
      refine bind_mv (g := clf d) ?_ (fun nb => ?_)
      · show (if (st.e0 <? st.e1) = true then _ else _) = Except.map _ (if (st.e0 <? st.e1) = true then _ else _)
        split
        · exact ixGet_map _ _ _
        · show ixGet (st.cells.map (clf d)) (prevIx (st.cells.map (clf d)).length i) = _
          rw [length_map, ixGet_map]
      have h2 : cellIx (slf d st).cells (fin (clf d nb).t.x) (slf d st).e1 = cellIx st.cells (fin nb.t.x) st.e1 := cellIx_lf d _ _ _
      simp only [h2]
      refine bind_same rfl (fun _ => ?_)
      show (if (c.t.y2 ≤? c.t.y4) = true then _ else _) = _
      split
      · refine bind_same ?_ (fun ext => ?_)
        · show (if (fin 0 <? fin c.t.x) = true then _ else _) = _
          have hp : (fun c : Cell K => (clf d c).t.y4 <? (clf d c).t.y3) = (fun c : Cell K => c.t.y4 <? c.t.y3) := rfl
          split
          · show (lastIx _ (st.cells.map (clf d)) >>= _) = _
            rw [lastIx_map, hp]
          · show (firstIx _ (st.cells.map (clf d)) >>= _) = _
            rw [firstIx_map, hp]
        · show Except.ok _ = Except.ok _
          unfold slf
          simp only [extendList_lf]
          rfl
      · rfl

theorem seaTrunc_lf (Dx : K) (st : MorSt K) : seaTrunc Dx (slf d st) = (seaTrunc Dx st).map (slf d) := by
  unfold seaTrunc
  show (if st.ix.length ≤ 1 then _ else _) = _
  split
  · rfl
  · have h1 : ∀ ix, ixWhere (slf d st).cells ix (fun t => t.y0 ≤? t.y1) = ixWhere st.cells ix (fun t => t.y0 ≤? t.y1) :=
      fun ix => ixWhere_lf d _ _ _ (fun t => rfl)
    simp only [h1, show (slf d st).ix = st.ix from rfl, show (slf d st).e0 = st.e0 from rfl, show (slf d st).e1 = st.e1 from rfl]
    split
    · rfl
    · split
      · refine bind_same rfl (fun i => ?_)
        refine bind_mv (ixGet_map _ _ _) (fun c => ?_)
        show Except.ok _ = Except.ok _
        unfold slf
        simp only [whereIx_map]
        rfl
      · refine bind_same rfl (fun i => ?_)
        refine bind_mv (ixGet_map _ _ _) (fun c => ?_)
        show Except.ok _ = Except.ok _
        unfold slf
        simp only [whereIx_map]
        rfl

theorem lagoonPrevent_lf (C : Bool) (st : MorSt K) : lagoonPrevent (liftPars d pp) C (slf d st) = (lagoonPrevent pp C st).map (slf d) := by
  unfold lagoonPrevent
  split
  · rfl
  · refine bind_same rfl (fun i => ?_)
    refine bind_mv (ixGet_map _ _ _) (fun c => ?_)
    show (if (c.t.y2 ≤? c.t.y3) = true then _ else _) = _
    split
    · show Except.ok _ = Except.ok _
      unfold slf
      simp only
      rw [modify_mv (lagoonPreventCell_lf pp d)]
    · rfl

theorem repairStage_lf (C : Bool) (Dx : K) (st : MorSt K) : repairStage (liftPars d pp) C Dx (slf d st) = (repairStage pp C Dx st).map (slf d) := by
  unfold repairStage
  refine bind_mv (edge_lf d st) (fun s1 => ?_)
  refine bind_mv (g := List.map (clf d)) ?_ (fun cs => ?_)
  · show overwashRepair ((s1.cells.map (clf d)).map (cliffCell (liftPars d pp))) = _
    rw [map_mv (cliff_lf pp d), overwashRepair_lf]
  refine bind_mv (g := slf d) (elongate_lf pp d C { s1 with cells := cs }) (fun s2 => ?_)
  refine bind_mv (seaPrevent_lf d C s2) (fun s3 => ?_)
  refine bind_mv (lagoonTrunc_lf d s3) (fun s4 => ?_)
  refine bind_mv (seaTrunc_lf d Dx s4) (fun s5 => ?_)
  exact lagoonPrevent_lf pp d C s5

end repair

section breach
variable (pp : PhysPars K) (d : K)

/-- No channel merges with the lagoon. -/
def NoHit (j : ℕ → Bool) (cells : List (Cell K)) : Prop := ∀ (i : ℕ) (c : Cell K), cells[i]? = some c → lagoonHit j i c = false

theorem mergeLagoon_none (j : ℕ → Bool) (cells : List (Cell K)) (h : NoHit j cells) : mergeLagoon j cells = cells := by
  unfold mergeLagoon
  apply ext_getElem?
  intro i
  rw [getElem?_mapIdx]
  cases hc : cells[i]? with
  | none => rfl
  | some c => rw [Option.map_some, h i c hc]; rfl

theorem noHit_lf (j : ℕ → Bool) (cells : List (Cell K)) (h : NoHit j cells) : NoHit j (cells.map (clf d)) := by
  intro i c hc
  rw [getElem?_map] at hc
  cases hx : cells[i]? with
  | none => rw [hx] at hc; cases hc
  | some c0 =>
    rw [hx] at hc
    cases hc
    exact h i c0 hx

theorem walk_lf (dir : ℤ) : ∀ (f : ℕ) (c : ℤ) (cells : List (Cell K)),
    walk (liftPars d pp) dir f c (cells.map (clf d)) = (walk pp dir f c cells).map (fun r => (r.1, r.2.map (clf d)))
  | 0, _, _ => rfl
  | f + 1, c, cells => by
    unfold walk
    rw [length_map]
    split
    · rfl
    · rename_i j _
      refine bind_mv (ixGet_map _ _ _) (fun nxt => ?_)
      rw [wideEnough_lf]
      split
      · split
        · rfl
        · refine bind_mv (ixGet_map _ _ _) (fun cur => ?_)
          have hm : ((cells.map (clf d)).modify j fun x => { x with wl := (clf d cur).wl }) = (cells.modify j fun x => { x with wl := cur.wl }).map (clf d) :=
            modify_mv (f := clf d) (g := fun x => { x with wl := (clf d cur).wl }) (g' := fun x => { x with wl := cur.wl }) (fun _ => rfl) _ _
          rw [hm]
          exact walk_lf dir f _ _
      · rfl

theorem connStart_lf (C : Bool) (X0 : ℕ) (st : MorSt K) : connStart (liftPars d pp) C X0 (slf d st) = connStart pp C X0 st := by
  unfold connStart
  split
  · rfl
  · show (if (!st.e0.isnan) = true then _ else _) = _
    split
    · have h1 : (slf d st).cells.map (fun c => (fin c.t.x - (slf d st).e0).abs) = st.cells.map (fun c => (fin c.t.x - st.e0).abs) := map_same (fun _ => rfl) _
      simp only [h1]
      refine bind_cong (ixGet_map _ _ _) (fun c => ?_)
      rw [wideEnough_lf]
      show (if _ then _ else if (!((List.take _ (st.cells.map (clf d))).drop _).all _) = true then _ else _) = _
      rw [← map_take, ← map_drop, all_mv (f := clf d) (g := fun c : Cell K => c.lo) (g' := fun c : Cell K => c.lo) (fun _ => rfl)]
      rfl
    · rfl

theorem connected_lf (C : Bool) (X0 : ℕ) (st : MorSt K) : connected (liftPars d pp) C X0 (slf d st) = (connected pp C X0 st).map (fun r => (r.1, slf d r.2)) := by
  unfold connected
  refine bind_same (connStart_lf pp d C X0 st) (fun ⟨mm, e0⟩ => ?_)
  have hn : ∀ cells : List (Cell K), (cells.map (clf d)).any (fun c => c.wl.isnan) = cells.any (fun c => c.wl.isnan) := fun cells => any_mv (f := clf d) (fun c : Cell K => gl_isnan d c.wl) _
  cases mm with
  | none =>
    refine bind_same ?_ (fun _ => rfl)
    exact congrArg pyAssert (congrArg not (hn _))
  | some p =>
    obtain ⟨lo, hi⟩ := p
    simp only
    rw [show (slf d st).cells.length = st.cells.length from length_map _]
    refine bind_mv (walk_lf pp d _ _ _ _) (fun ⟨l1, c1⟩ => ?_)
    refine bind_mv (walk_lf pp d _ _ _ _) (fun ⟨l2, c2⟩ => ?_)
    exact bind_same (congrArg pyAssert (congrArg not (hn _))) (fun _ => rfl)

theorem relicBreach_lf (C : Bool) (conn : Option (ℤ × ℤ)) (e0 : Fl K) (hit : List Bool) (cells : List (Cell K)) :
    relicBreach C conn e0 hit (cells.map (clf d)) = relicBreach C conn e0 hit cells := by
  unfold relicBreach
  simp only [length_map]
  split
  · refine bind_cong (gather_mv _ _ _) (fun cs => ?_)
    rw [map_same (f := clf d) (g := fun c : Cell K => (fin c.t.x - e0).abs) (g' := fun c : Cell K => (fin c.t.x - e0).abs) (fun _ => rfl)]
  · rfl

theorem mergeShore_lf (j : ℕ → Bool) (C : Bool) (conn : Option (ℤ × ℤ)) (st : MorSt K) :
    mergeShore (liftPars d pp) j C conn (slf d st) = (mergeShore pp j C conn st).map (fun r => (r.1, slf d r.2)) := by
  unfold mergeShore
  have h1 : (slf d st).cells.mapIdx (shoreHit j) = st.cells.mapIdx (shoreHit j) := by
    apply ext_getElem?
    intro i
    simp only [slf, getElem?_mapIdx, getElem?_map, Option.map_map]
    cases st.cells[i]? with
    | none => rfl
    | some c => exact congrArg some (shoreHit_lf d j i c)
  rw [h1]
  simp only
  split
  · rfl
  · refine bind_same (relicBreach_lf d C conn _ _ _) (fun b => ?_)
    rw [show (slf d st).cells.length = st.cells.length from length_map _]
    have hz : ∀ hit : List Bool, ((slf d st).cells.zip hit).map (fun (c, h) => if h then mergeShoreCell (liftPars d pp) c else c) =
        ((st.cells.zip hit).map (fun (c, h) => if h then mergeShoreCell pp c else c)).map (clf d) := by
      intro hit
      apply ext_getElem?
      intro i
      simp only [slf, getElem?_map, zip, zipWith_map_left, getElem?_zipWith]
      cases st.cells[i]? with
      | none => rfl
      | some c =>
        cases hit[i]? with
        | none => rfl
        | some h =>
          show some (if h = true then _ else _) = some (clf d (if h = true then _ else _))
          rw [apply_ite (clf d), mergeShoreCell_lf]
    simp only [hz]
    cases b with
    | none =>
      simp only
      split
      · rfl
      · rfl
    | some b =>
      simp only
      split
      · rfl
      · rfl

theorem absX_lf (cells : List (Cell K)) (ix : List ℕ) : absX (cells.map (clf d)) ix = absX cells ix := by
  unfold absX
  congr 1
  funext i
  rw [getElem?_map]
  cases cells[i]? <;> rfl

theorem erosionDecide_lf (C : Bool) (b : Option ℕ) (e0 : Fl K) (cells : List (Cell K)) (ero poss : List ℕ) :
    erosionDecide C b e0 (cells.map (clf d)) ero poss = erosionDecide C b e0 cells ero poss := by
  unfold erosionDecide
  simp only [absX_lf]

theorem erosionBreach_lf (C : Bool) (X0 : ℕ) (b : Option ℕ) (st : MorSt K) :
    erosionBreach C X0 b (slf d st) = (erosionBreach C X0 b st).map (fun r => (r.1, slf d r.2)) := by
  unfold erosionBreach
  have h1 : whereIx (fun c : Cell K => eroded c.t) (slf d st).cells = whereIx (fun c : Cell K => eroded c.t) st.cells :=
    (whereIx_map _ _ _).trans (whereIx_congr (fun c : Cell K => eroded_lf d c.t) _)
  have h2 : (slf d st).cells.map (fun c => c.lo) = st.cells.map (fun c => c.lo) := map_same (f := clf d) (fun _ => rfl) _
  simp only [h1, h2]
  split
  · rfl
  · refine bind_same (erosionDecide_lf d C b _ _ _ _) (fun ⟨b, rest⟩ => ?_)
    show Except.ok _ = Except.ok _
    unfold slf modifyIf
    simp only
    rw [mapIdx_mv (g' := fun i c => if rest.contains i then restoreCell c else c) (fun i c => ?_)]
    rw [apply_ite (clf d)]
    congr 1
    exact restoreCell_lf d c

/-- The crest is above the mark of dry transects, before and after lifting. -/
def AboveMark (d : K) (t : Transect K) : Prop := (t.z0 <? (dry : Fl K)) = false ∧ (sh d t.z0 <? (dry : Fl K)) = false

theorem spill_lf (c : Cell K) (h : AboveMark d c.t) : (sh d c.t.z0 <? gl d c.wl) = (c.t.z0 <? c.wl) := by
  by_cases hw : c.wl = dry
  · rw [hw, gl_dry, h.1, h.2]
  · rw [gl_wet d hw, sh_blt]

theorem gather_mem {α : Type} (l : List α) : ∀ (ix : List ℕ) (out : List α), gather l ix = .ok out → ∀ x ∈ out, ∃ i ∈ ix, l[i]? = some x
  | [], out, h, x, hx => by cases h; cases hx
  | i :: is, out, h, x, hx => by
    have ih := gather_mem l is
    unfold gather at h ih
    rw [mapM_cons] at h
    simp only [bind_ok, pure_ok, ixGet_ok] at h
    obtain ⟨a, ha, o, ho, rfl⟩ := h
    rcases mem_cons.mp hx with rfl | hx
    · exact ⟨i, mem_cons_self, ha⟩
    · obtain ⟨k, hk, he⟩ := ih o ho x hx
      exact ⟨k, mem_cons_of_mem _ hk, he⟩

theorem cands_mem (conn : Option (ℤ × ℤ)) (o : List Bool) (X0 : ℕ) (sp : List ℕ) {i : ℕ} (h : i ∈ overtopCands conn o X0 sp) : i ∈ sp := by
  unfold overtopCands at h
  obtain ⟨k, hk, hi⟩ := mem_flatMap.mp h
  rcases mem_append.mp hi with h1 | h1
  · split at h1
    · cases mem_singleton.mp h1; exact hk
    · cases h1
  · split at h1
    · cases mem_singleton.mp h1; exact hk
    · cases h1

theorem overtopBreach_lf (C : Bool) (X0 : ℕ) (conn : Option (ℤ × ℤ)) (b : Option ℕ) (st : MorSt K) (hc : ∀ c ∈ st.cells.map crestCell, AboveMark d c.t) :
    overtopBreach (liftPars d pp) C X0 conn b (slf d st) = (overtopBreach pp C X0 conn b st).map (fun r => (r.1, slf d r.2)) := by
  unfold overtopBreach
  have h0 : (slf d st).cells.map crestCell = (st.cells.map crestCell).map (clf d) := map_mv (crestCell_lf d) _
  rw [h0]
  generalize st.cells.map crestCell = cs at hc
  have h1 : (cs.map (clf d)).any (fun c => c.t.z0.isnan) = cs.any (fun c => c.t.z0.isnan) := any_mv (f := clf d) (fun c : Cell K => sh_isnan d c.t.z0) _
  have h2 : whereIx (fun c : Cell K => c.t.z0 <? c.wl) (cs.map (clf d)) = whereIx (fun c : Cell K => c.t.z0 <? c.wl) cs := by
    rw [whereIx_map]
    unfold whereIx
    apply filter_congr
    intro i _
    cases hx : cs[i]? with
    | none => rfl
    | some c => exact spill_lf d c (hc c (mem_of_getElem? hx))
  have h3 : (cs.map (clf d)).map (fun c => fin pp.MinOutletWidth <? (c.t.y3 - c.t.y4)) = cs.map (fun c => fin pp.MinOutletWidth <? (c.t.y3 - c.t.y4)) :=
    map_same (fun c => rfl) _
  have h4 : (liftPars d pp).MinOutletWidth = pp.MinOutletWidth := rfl
  simp only [h1, h2, h3, h4]
  refine bind_same rfl (fun _ => ?_)
  split
  · rfl
  · split
    · split <;> rfl
    · rw [gather_mv]
      cases hg : gather cs (overtopCands conn (cs.map fun c => fin pp.MinOutletWidth <? c.t.y3 - c.t.y4) X0 (whereIx (fun c => c.t.z0 <? c.wl) cs)) with
      | error er => rfl
      | ok gs =>
        have hd : (gs.map (clf d)).map (fun c => c.wl - c.t.z0) = gs.map (fun c => c.wl - c.t.z0) := by
          rw [map_map]
          apply map_congr_left
          intro c hcm
          obtain ⟨i, hi, he⟩ := gather_mem _ _ _ hg c hcm
          have hs := cands_mem _ _ _ _ hi
          have hsp : (c.t.z0 <? c.wl) = true := by
            unfold whereIx at hs
            have := (mem_filter.mp hs).2
            rw [he] at this
            exact this
          have hw : c.wl ≠ dry := by
            intro hw
            rw [hw, (hc c (mem_of_getElem? he)).1] at hsp
            cases hsp
          show gl d c.wl - sh d c.t.z0 = _
          rw [gl_wet d hw, sh_sub_sh]
        show (ixGet _ (argmax ((gs.map (clf d)).map (fun c => c.wl - c.t.z0))) >>= _) = Except.map _ (ixGet _ (argmax (gs.map (fun c => c.wl - c.t.z0))) >>= _)
        rw [hd]
        exact bind_same rfl (fun k => rfl)

theorem createBreach_lf (conn : Option (ℤ × ℤ)) (b : Option ℕ) (st : MorSt K) : createBreach (liftPars d pp) conn b (slf d st) = (createBreach pp conn b st).map (slf d) := by
  unfold createBreach
  split
  · rfl
  · refine bind_mv (ixGet_map _ _ _) (fun c => ?_)
    rw [show (slf d st).cells.length = st.cells.length from length_map _]
    split
    · rfl
    · show Except.ok _ = Except.ok _
      have hz : pymin (slf d st).endZ (fin (liftPars d pp).MaxOutletElev) = sh d (pymin st.endZ (fin pp.MaxOutletElev)) :=
        sh_pymin d st.endZ (fin pp.MaxOutletElev)
      simp only [hz]
      unfold slf
      simp only
      rw [modify_mv (breachCell_lf pp d _ _)]
      rfl

theorem finishStage_lf (X0 : ℕ) (st : MorSt K) : finishStage (liftPars d pp) X0 (slf d st) = (finishStage pp X0 st).map (slf d) := by
  unfold finishStage
  have h0 : (slf d st).cells.modify X0 (keepCell (liftPars d pp)) = (st.cells.modify X0 (keepCell pp)).map (clf d) := modify_mv (keepCell_lf pp d) _ _
  rw [h0]
  generalize st.cells.modify X0 (keepCell pp) = cs
  refine bind_same (congrArg pyAssert (all_mv (fun c => rfl) _)) (fun _ => ?_)
  refine bind_same (congrArg pyAssert (all_mv (fun c => rfl) _)) (fun _ => ?_)
  exact bind_same (congrArg pyAssert (all_mv (fun c => rfl) _)) (fun _ => rfl)

/-- Crests are not changed from the check for overtopping to the end. -/
theorem create_clear {conn : Option (ℤ × ℤ)} {b : Option ℕ} {st st' : MorSt K} (h : createBreach pp conn b st = .ok st')
    (hc : ∀ c ∈ st'.cells, AboveMark d c.t) : ∀ c ∈ st.cells, AboveMark d c.t := by
  unfold createBreach at h
  cases b with
  | none => cases h; exact hc
  | some b =>
    simp only [bind_ok, ixGet_ok] at h
    obtain ⟨c0, hc0, h⟩ := h
    split at h
    · cases h; exact hc
    · cases h
      intro c hm
      obtain ⟨i, hi⟩ := mem_iff_getElem?.mp hm
      have hx := hc (if b = i then breachCell pp (pymax st.endW (fin (2 * pp.MinOutletWidth))) (pymin st.endZ (fin pp.MaxOutletElev)) c else c)
        (mem_of_getElem? (i := i) (by simp only [getElem?_modify, hi]; split <;> rfl))
      split at hx <;> exact hx

theorem finish_clear {X0 : ℕ} {st st' : MorSt K} (h : finishStage pp X0 st = .ok st')
    (hc : ∀ c ∈ st'.cells, AboveMark d c.t) : ∀ c ∈ st.cells, AboveMark d c.t := by
  unfold finishStage at h
  simp only [bind_ok, pure_ok, pyAssert_ok] at h
  obtain ⟨-, -, -, -, -, -, rfl⟩ := h
  intro c hm
  obtain ⟨i, hi⟩ := mem_iff_getElem?.mp hm
  have hx := hc (if X0 = i then keepCell pp c else c) (mem_of_getElem? (i := i) (by simp only [getElem?_modify, hi]; split <;> rfl))
  split at hx
  · unfold keepCell at hx
    split at hx <;> exact hx
  · exact hx

theorem overtop_cs {C : Bool} {X0 : ℕ} {conn : Option (ℤ × ℤ)} {b b' : Option ℕ} {st st' : MorSt K} (h : overtopBreach pp C X0 conn b st = .ok (b', st')) :
    st'.cells = st.cells.map crestCell := by
  unfold overtopBreach at h
  simp only [bind_ok, pyAssert_ok] at h
  obtain ⟨-, -, h⟩ := h
  split at h
  · cases h; rfl
  · split at h
    · split at h
      · cases h
      · cases h; rfl
    · simp only [bind_ok, pure_ok] at h
      obtain ⟨_, _, _, _, h⟩ := h
      cases h; rfl

theorem breachStage_lf (j1 j2 : ℕ → Bool) (C : Bool) (X0 : ℕ) (st : MorSt K) (hn : NoHit j1 st.cells) {b : Bool} {st' : MorSt K}
    (h : breachStage pp j1 j2 C X0 st = .ok (b, st')) (hc : ∀ c ∈ st'.cells, AboveMark d c.t) :
    breachStage (liftPars d pp) j1 j2 C X0 (slf d st) = .ok (b, slf d st') := by
  unfold breachStage at h ⊢
  have h0 : ({ slf d st with cells := mergeLagoon j1 (slf d st).cells } : MorSt K) = slf d { st with cells := mergeLagoon j1 st.cells } := by
    unfold slf
    simp only [mergeLagoon_none j1 _ (noHit_lf d j1 _ hn), mergeLagoon_none j1 _ hn]
  simp only [h0]
  simp only [bind_ok, pure_ok] at h
  obtain ⟨⟨conn, s1⟩, e1, ⟨b1, s2⟩, e2, ⟨b2, s3⟩, e3, ⟨b3, s4⟩, e4, s5, e5, h⟩ := h
  obtain ⟨rfl, rfl⟩ := Prod.mk.inj h
  have hc4 := create_clear pp d e5 hc
  have hc3 : ∀ c ∈ s3.cells.map crestCell, AboveMark d c.t := by
    rw [← overtop_cs pp e4]; exact hc4
  rw [connected_lf, e1]
  show (mergeShore _ _ _ _ (slf d s1) >>= _) = _
  rw [mergeShore_lf, e2]
  show (erosionBreach _ _ _ (slf d s2) >>= _) = _
  rw [erosionBreach_lf, e3]
  show (overtopBreach _ _ _ _ _ (slf d s3) >>= _) = _
  rw [overtopBreach_lf pp d _ _ _ _ _ hc3, e4]
  show (createBreach _ _ _ (slf d s4) >>= _) = _
  rw [createBreach_lf, e5]
  rfl

/-- After the repairs no channel merges with the lagoon. -/
def NoMerge (j : ℕ → Bool) (a : MorIn K) : Prop :=
  ∀ dt X0 s0 s1, forceStage pp a = .ok (dt, X0, s0) → repairStage pp a.Closed a.Dx s0 = .ok s1 → NoHit j s1.cells

theorem update_lf (j1 j2 : ℕ → Bool) (a : MorIn K) (hm : NoMark a) (hn : NoMerge pp j1 a) {m : MorOut K} (h : updateMorphology pp j1 j2 a = .ok m)
    (hc : ∀ r ∈ m.rows, AboveMark d r) : updateMorphology (liftPars d pp) j1 j2 (ilf d a) = .ok (liftMor d m) := by
  unfold updateMorphology at h ⊢
  simp only [bind_ok, pure_ok] at h
  obtain ⟨⟨dt, X0, s0⟩, e0, s1, e1, ⟨b, s2⟩, e2, s3, e3, rfl⟩ := h
  have hc3 : ∀ c ∈ s3.cells, AboveMark d c.t := fun c hcm => hc c.t (mem_map_of_mem hcm)
  rw [forceStage_lf pp d a hm, e0]
  show (repairStage _ _ _ (slf d s0) >>= _) = _
  rw [show (ilf d a).Closed = a.Closed from rfl, show (ilf d a).Dx = a.Dx from rfl, repairStage_lf, e1]
  show (breachStage _ _ _ _ _ (slf d s1) >>= _) = _
  rw [breachStage_lf pp d j1 j2 _ _ _ (hn dt X0 s0 s1 e0 e1) e2 (finish_clear pp d e3 hc3)]
  show (finishStage _ _ (slf d s2) >>= _) = _
  rw [finishStage_lf, e3]
  show Except.ok _ = Except.ok _
  unfold slf liftMor liftRows
  simp only [map_map]
  rfl

end breach

end Verif.Model
