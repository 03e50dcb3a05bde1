import Verif.Lemmas.Scale
import Verif.Lemmas.Plain
import Verif.Spec.Resize

set_option autoImplicit false
set_option linter.unusedSectionVars false

/-! # Scale models of the coast: rates of change -/

namespace Verif.Model
open Verif Fl List Spec

variable {K : Type} [Field K] [LinearOrder K] [IsStrictOrderedRing K]

theorem resized_eq (q : K) : resized q = sc q := by funext a; cases a <;> rfl

section fl
variable {p q : K} (hp : 0 < p) (hq : 0 < q)
theorem sc_twice (a : Fl K) : sc p (sc q a) = sc (p * q) a := by
  cases a <;> first | rfl | exact congrArg fin (mul_assoc p q _).symm
theorem sc_by_one (a : Fl K) : sc 1 a = a := by
  cases a <;> first | rfl | exact congrArg fin (one_mul _)
include hp hq
theorem sc_mul_sc (a b : Fl K) : sc p a * sc q b = sc (p * q) (a * b) := by
  rw [← sc_mul_left p hp, ← sc_mul_right q hq, sc_twice]
omit hp in
theorem under_sc (a b : Fl K) : a / sc q b = sc (1 / q) (a / b) := by
  have h1 : 0 < 1 / q := by positivity
  cases b with
  | fin y =>
    cases a with
    | fin x =>
      show (if q * y = 0 then infOfSign x else fin (x / (q * y))) = sc (1 / q) (if y = 0 then infOfSign x else fin (x / y))
      by_cases hy : y = 0
      · rw [if_pos (by rw [hy, mul_zero]), if_pos hy, sc_infOfSign _ h1]
      · rw [if_neg (mul_ne_zero hq.ne' hy), if_neg hy, sc_fin]
        congr 1
        field_simp
    | nan => rfl
    | pinf =>
      show (if 0 ≤ q * y then pinf else ninf) = sc (1 / q) (if 0 ≤ y then pinf else ninf)
      simp only [mul_nonneg_iff_of_pos_left hq]
      split <;> rfl
    | ninf =>
      show (if 0 ≤ q * y then ninf else pinf) = sc (1 / q) (if 0 ≤ y then ninf else pinf)
      simp only [mul_nonneg_iff_of_pos_left hq]
      split <;> rfl
  | nan => cases a <;> rfl
  | pinf => cases a <;> first | rfl | exact congrArg fin (mul_zero _).symm
  | ninf => cases a <;> first | rfl | exact congrArg fin (mul_zero _).symm
theorem sc_div_sc (a b : Fl K) : sc p a / sc q b = sc (p / q) (a / b) := by
  rw [under_sc hq, ← sc_div p hp, sc_twice, one_div_mul_eq_div]
end fl

theorem mapIdx_of_map {α β γ : Type} (f : α → β) (g : ℕ → β → γ) (l : List α) : (l.map f).mapIdx g = l.mapIdx (fun i a => g i (f a)) := by
  apply ext_getElem?
  intro i
  rw [getElem?_mapIdx, getElem?_mapIdx, getElem?_map]
  cases l[i]? <;> rfl
theorem map_of_mapIdx {α β γ : Type} (f : β → γ) (g : ℕ → α → β) (l : List α) : (l.mapIdx g).map f = l.mapIdx (fun i a => f (g i a)) := by
  apply ext_getElem?
  intro i
  rw [getElem?_mapIdx, getElem?_map, getElem?_mapIdx]
  cases l[i]? <;> rfl

section
variable (L : K) (hL : 0 < L)

/-- A cell of the scale model, its water level forgotten. -/
def csz (c : Cell K) : Cell K := { c with t := resizeRow L c.t, sfh := sc L c.sfh, cw := sc L c.cw, bh := sc L c.bh, wl := nan }
/-- The water level forgotten. -/
def blank (c : Cell K) : Cell K := { c with wl := nan }
def blankSt (st : MorSt K) : MorSt K := { st with cells := st.cells.map blank }
def ssz (st : MorSt K) : MorSt K :=
  { cells := st.cells.map (csz L), e0 := sc L st.e0, e1 := sc L st.e1, endW := sc L st.endW, endZ := sc L st.endZ, ix := st.ix, riv := st.riv.map (sc L) }

theorem row_sz (t : Transect K) : resizeRow L t =
    { x := L * t.x, y0 := sc L t.y0, y1 := sc L t.y1, y2 := sc L t.y2, y3 := sc L t.y3, y4 := sc L t.y4
      z0 := sc L t.z0, z1 := sc L t.z1, z2 := sc L t.z2, z3 := sc L t.z3 } := by
  unfold resizeRow; rw [resized_eq]

theorem in_sz (a : MorIn K) : resizeIn L a =
    { a with
      rows := a.rows.map (resizeRow L), EndX0 := sc L a.EndX0, EndX1 := sc L a.EndX1, EndWidth := sc L a.EndWidth, EndElev := sc L a.EndElev
      RiverElev := a.RiverElev.map (sc L), LagoonWL := a.LagoonWL.map (sc L), OutletDep := a.OutletDep.map (sc L), ChanWidth := a.ChanWidth.map (sc L)
      ChanDep := a.ChanDep.map (sc L), LST := a.LST.map (sc (L ^ 3)), Bedload := a.Bedload.map (sc (L ^ 3)), CST := a.CST.map (sc (L ^ 2))
      Dx := L * a.Dx, MaxMorChange := L * a.MaxMorChange } := by
  unfold resizeIn; simp only [resized_eq]

include hL
theorem mkCell_sz (pp : PhysPars K) (a : MorIn K) (i : ℕ) (r : Transect K) :
    blank (mkCell (resizePars L pp) (resizeIn L a) i (resizeRow L r)) = csz L (mkCell pp a i r) := by
  unfold mkCell blank csz
  simp only [row_sz, in_sz, sc_isnan, ← sc_sub, ← sc_add, apply_ite (sc L), resizePars, ← sc_fin, sc_blt L hL]

theorem mkCell_wl (pp : PhysPars K) (a : MorIn K) (i : ℕ) (r : Transect K) :
    (mkCell (resizePars L pp) (resizeIn L a) i (resizeRow L r)).wl.isnan = (mkCell pp a i r).wl.isnan := by
  unfold mkCell
  simp only [row_sz, in_sz, sc_getD, ← sc_add, sc_blt L hL]
  split
  · rw [sc_isnan]
  · split
    · rw [sc_isnan]
    · rfl

theorem rows_blank (pp : PhysPars K) (a : MorIn K) :
    ((resizeIn L a).rows.mapIdx (mkCell (resizePars L pp) (resizeIn L a))).map blank = (a.rows.mapIdx (mkCell pp a)).map (csz L) := by
  apply ext_getElem?
  intro i
  simp only [getElem?_map, getElem?_mapIdx]
  rw [show (resizeIn L a).rows = a.rows.map (resizeRow L) from rfl, getElem?_map]
  cases a.rows[i]? with
  | none => rfl
  | some r => exact congrArg some (mkCell_sz L hL pp a i r)

theorem precalc_sz (pp : PhysPars K) (a : MorIn K) :
    precalc (resizePars L pp) (resizeIn L a) =
      (precalc pp a).map (fun r => ((resizeIn L a).rows.mapIdx (mkCell (resizePars L pp) (resizeIn L a)), r.2)) := by
  unfold precalc
  have e0 : firstIx (fun r : Transect K => fin r.x ==? fin 0) (resizeIn L a).rows = firstIx (fun r : Transect K => fin r.x ==? fin 0) a.rows := by
    rw [show (resizeIn L a).rows = a.rows.map (resizeRow L) from rfl, firstIx_map]
    congr 1
    funext r
    show decide (L * r.x = 0) = decide (r.x = 0)
    simp [hL.ne']
  have e1 : firstIx (fun r : Transect K => (resizeIn L a).EndX1 <? fin r.x) (resizeIn L a).rows = firstIx (fun r : Transect K => a.EndX1 <? fin r.x) a.rows := by
    rw [show (resizeIn L a).rows = a.rows.map (resizeRow L) from rfl, firstIx_map]
    congr 1
    funext r
    rw [in_sz]
    exact sc_blt L hL _ (fin r.x)
  have hlen : (resizeIn L a).rows.length = a.rows.length := length_map _
  have l1 : (resizeIn L a).LagoonWL.length = a.LagoonWL.length := length_map _
  have l2 : (resizeIn L a).OutletDep.length = a.OutletDep.length := length_map _
  have w1 : ((resizeIn L a).rows.mapIdx (mkCell (resizePars L pp) (resizeIn L a))).any (·.wl.isnan) = (a.rows.mapIdx (mkCell pp a)).any (·.wl.isnan) := by
    rw [show (resizeIn L a).rows = a.rows.map (resizeRow L) from rfl, mapIdx_of_map]
    have h : ∀ l : List (Cell K), l.any (·.wl.isnan) = (l.map (·.wl.isnan)).any id := fun l => by rw [any_map]; rfl
    rw [h, h, map_of_mapIdx, map_of_mapIdx]
    congr 2
    funext i r
    exact mkCell_wl L hL pp a i r
  have w2 : ((resizeIn L a).rows.mapIdx (mkCell (resizePars L pp) (resizeIn L a))).all (fun c => fin 0 <? c.cw) = (a.rows.mapIdx (mkCell pp a)).all (fun c => fin 0 <? c.cw) := by
    have h := congrArg (fun l => l.all (fun c : Cell K => fin 0 <? c.cw)) (rows_blank L hL pp a)
    simp only [all_map] at h
    rw [show (fun c : Cell K => fin 0 <? c.cw) ∘ blank = (fun c : Cell K => fin 0 <? c.cw) from rfl] at h
    rw [h]
    congr 1
    funext c
    exact sc_blt0 L hL c.cw
  refine bind_same e0 (fun X0 => ?_)
  refine bind_same ?_ (fun rb => ?_)
  · show (if a.Closed = true then _ else _) = _
    rw [e1]
  dsimp only
  rw [hlen, l1, l2, w1, w2]
  show (if a.LagoonWL.length ≠ a.rows.length ∨ a.OutletDep.length ≠ a.rows.length then _ else
    if (!a.Closed && a.outlet.any _) = true then _ else _) = _
  split
  · rfl
  · split
    · rfl
    · exact bind_same rfl (fun _ => bind_same rfl (fun _ => rfl))

theorem zipRatio_sz (l m : List (Fl K)) (w : K) : zipWith (fun a b => fin w <? (a / b)) (l.map (sc L)) (m.map (sc L)) = zipWith (fun a b => fin w <? (a / b)) l m := by
  rw [zipWith_map]
  congr 1
  funext a b
  rw [sc_div_sc hL hL, div_self hL.ne', sc_by_one]

theorem sections_sz (pp : PhysPars K) (a : MorIn K) : sections (resizePars L pp) (resizeIn L a) = (sections pp a).map (List.map (scSec (L ^ 3))) := by
  unfold sections
  rw [in_sz]
  simp only [resizePars]
  set q := L ^ 3
  have e1 : zipWith (· - ·) (a.Bedload.map (sc q)) ((a.Bedload.map (sc q)).tail ++ [fin 0]) = (zipWith (· - ·) a.Bedload (a.Bedload.tail ++ [fin 0])).map (sc q) := by
    rw [← zipSub_sc, map_append, map_tail, map_cons, map_nil, sc_zero]
  have e2 : zipWith (· - ·) (a.Bedload.map (sc q)).dropLast (a.Bedload.map (sc q)).tail = (zipWith (· - ·) a.Bedload.dropLast a.Bedload.tail).map (sc q) := by
    rw [← zipSub_sc, map_tail, map_dropLast]
  have e3 : zipWith (fun w d => fin pp.WidthDepthRatio <? (w / d)) (a.ChanWidth.map (sc L)).tail (a.ChanDep.map (sc L)).tail =
      zipWith (fun w d => fin pp.WidthDepthRatio <? (w / d)) a.ChanWidth.tail a.ChanDep.tail := by
    rw [← map_tail, ← map_tail, zipRatio_sz L hL]
  have e4 : zipWith (fun w d => fin pp.WidthDepthRatio <? (w / d)) (a.ChanWidth.map (sc L)).tail.dropLast (a.ChanDep.map (sc L)).tail.dropLast =
      zipWith (fun w d => fin pp.WidthDepthRatio <? (w / d)) a.ChanWidth.tail.dropLast a.ChanDep.tail.dropLast := by
    rw [← map_tail, ← map_tail, ← map_dropLast, ← map_dropLast, zipRatio_sz L hL]
  have key : ∀ (d : List (Fl K)) (w : List Bool) (f : List ℕ),
      (if (a.ChanWidth.map (sc L)).length ≠ (a.ChanDep.map (sc L)).length ∨ w.length ≠ (d.map (sc q)).length ∨ f.length ≠ (d.map (sc q)).length then .error .value
        else .ok (List.zipWith (fun d (p : Bool × ℕ) => ⟨d, p.1, p.2⟩) (d.map (sc q)) (w.zip f)) : Except PyErr (List (Sec K))) =
      Except.map (List.map (scSec q)) (if a.ChanWidth.length ≠ a.ChanDep.length ∨ w.length ≠ d.length ∨ f.length ≠ d.length then .error .value
        else .ok (List.zipWith (fun d (p : Bool × ℕ) => ⟨d, p.1, p.2⟩) d (w.zip f))) := by
    intro d w f
    simp only [length_map]
    split
    · rfl
    · refine congrArg Except.ok ?_
      rw [zipWith_map_left, map_zipWith]
      rfl
  cases hC : a.Closed with
  | true =>
    simp only [if_true, e1, e3]
    exact key _ _ _
  | false =>
    simp only [Bool.false_eq_true, if_false, e2, e4]
    exact key _ _ _
omit hL

theorem addCol_sz (q : K) (l : List (Fl K)) (ixs : List ℕ) (ss : List (Sec K)) (rs : List (Transect K)) (f f' : Sec K → Transect K → Fl K)
    (hf : ∀ s r, f' (scSec q s) (resizeRow L r) = sc L (f s r)) :
    addCol (l.map (sc L)) ixs (ss.map (scSec q)) (rs.map (resizeRow L)) f' = (addCol l ixs ss rs f).map (List.map (sc L)) := by
  unfold addCol
  rw [length_map]
  split_ifs
  · rfl
  · rw [← scatter_sc, zipWith_map, map_zipWith]
    simp only [hf]

include hL
theorem fall (a b : Fl K) (q : K) : sc (L ^ 3) a / (sc L b * fin (L * q)) = sc L (a / (b * fin q)) := by
  rw [← sc_fin, sc_mul_sc hL hL, sc_div_sc (by positivity) (by positivity)]
  congr 1
  field_simp

theorem riverRates_sz (pp : PhysPars K) (a : MorIn K) (cells : List (Cell K)) :
    riverRates (resizePars L pp) (resizeIn L a) (cells.map (csz L)) = (riverRates pp a cells).map (scRates L) := by
  have h3 : 0 < L ^ 3 := by positivity
  unfold riverRates
  have hz : replicate a.rows.length (fin 0 : Fl K) = (replicate a.rows.length (fin 0 : Fl K)).map (sc L) := by rw [map_replicate, sc_zero]
  have hn : (resizeIn L a).rows.length = a.rows.length := length_map _
  rw [hn]
  refine bind_mv (sections_sz L hL pp a) (fun ss => ?_)
  have hf : ∀ k : ℕ, (ss.map (scSec (L ^ 3))).filter (fun s => s.flag == k) = (ss.filter (fun s => s.flag == k)).map (scSec (L ^ 3)) := fun k => filter_mv (fun _ => rfl) ss
  simp only [hf]
  refine bind_mv (g := List.map (resizeRow L)) (gather_mv (resizeRow L) a.rows a.online) (fun onRows => ?_)
  have add := fun (ixs : List ℕ) (ss : List (Sec K)) (rs : List (Transect K)) f f' hf =>
    (congrArg (fun z => addCol z ixs (ss.map (scSec (L ^ 3))) (rs.map (resizeRow L)) f') hz).trans (addCol_sz L (L ^ 3) _ ixs ss rs f f' hf)
  have bank : ∀ r : Transect K, lagBank (resizeRow L r) = sc L (lagBank r) := by
    intro r
    unfold lagBank
    simp only [row_sz, sc_isnan, apply_ite (sc L)]
  refine bind_mv (add a.online _ onRows (fun s r => (s.bedDep - s.bedEro) / ((r.y3 - r.y4) * fin a.Dx)) _ (fun s r => ?_)) (fun z3 => ?_)
  · rw [bedDep_sc _ h3, bedEro_sc _ h3, ← sc_sub, row_sz, ← sc_sub]
    exact fall L hL _ _ _
  refine bind_mv (add a.online _ onRows (fun s r => s.bankEro / fin 2 / ((lagBank r - r.z3) * fin a.Dx)) _ (fun s r => ?_)) (fun y3 => ?_)
  · rw [bankEro_sc _ h3, ← sc_div _ h3, bank, row_sz, ← sc_sub]
    exact fall L hL _ _ _
  refine bind_mv (add a.online _ onRows (fun s r => -(s.bankEro / fin 2 / ((fin pp.BackshoreElev - r.z3) * fin a.Dx))) _ (fun s r => ?_)) (fun y4 => ?_)
  · rw [bankEro_sc _ h3, ← sc_div _ h3, row_sz, show fin (resizePars L pp).BackshoreElev = sc L (fin pp.BackshoreElev) from rfl, ← sc_sub, sc_neg]
    exact congrArg _ (fall L hL _ _ _)
  have hr : ((ss.filter (fun s => s.flag == 0)).map (scSec (L ^ 3))).map (fun s => (s.bedDep - s.ero) / (fin (resizePars L pp).RiverWidth * fin (resizeIn L a).Dx)) =
      ((ss.filter (fun s => s.flag == 0)).map (fun s => (s.bedDep - s.ero) / (fin pp.RiverWidth * fin a.Dx))).map (sc L) :=
    map_mv (fun s => by rw [bedDep_sc _ h3, ero_sc _ h3, ← sc_sub]; exact fall L hL _ (fin pp.RiverWidth) a.Dx) _
  show (if a.Closed = true then _ else _) = Except.map _ (if a.Closed = true then _ else _)
  split
  · show Except.ok _ = Except.ok _
    simp only [scRates, sc_zero]
    rw [← hz]
    exact congrArg Except.ok (by rw [← hr])
  · refine bind_mv (g := List.map (resizeRow L)) (gather_mv (resizeRow L) a.rows a.outlet) (fun outRows => ?_)
    refine bind_mv (add a.outlet _ outRows (fun s r => (s.bedDep - s.bedEro) / ((r.y1 - r.y2) * fin a.Dx)) _ (fun s r => ?_)) (fun z1 => ?_)
    · rw [bedDep_sc _ h3, bedEro_sc _ h3, ← sc_sub, row_sz, ← sc_sub]
      exact fall L hL _ _ _
    refine bind_mv (add a.outlet _ outRows (fun s r => s.bankEro / fin 2 / ((r.z0 - r.z1) * fin a.Dx)) _ (fun s r => ?_)) (fun y1 => ?_)
    · rw [bankEro_sc _ h3, ← sc_div _ h3, row_sz, ← sc_sub]
      exact fall L hL _ _ _
    refine bind_mv (add a.outlet _ outRows (fun s r => -(s.bankEro / fin 2 / ((r.z2 - r.z1) * fin a.Dx))) _ (fun s r => ?_)) (fun y2 => ?_)
    · rw [bankEro_sc _ h3, ← sc_div _ h3, row_sz, ← sc_sub, sc_neg]
      exact congrArg _ (fall L hL _ _ _)
    refine bind_mv (g := scSec (L ^ 3)) (single_sc (L ^ 3) _) (fun e => ?_)
    refine bind_mv (g := sc (L ^ 3)) ?_ (fun bl => ?_)
    · rw [in_sz]; exact pyGet_map _ _ _
    have hy : (cells.map (csz L)).map (fun c => toShore (resizePars L pp) (resizeIn L a) (sc (L ^ 3) bl) c / (c.sfh * fin (resizeIn L a).Dx)) =
        (cells.map (fun c => toShore pp a bl c / (c.sfh * fin a.Dx))).map (sc L) := by
      rw [map_map, map_map]
      refine map_congr_left (fun c _ => ?_)
      have e : toShore (resizePars L pp) (resizeIn L a) (sc (L ^ 3) bl) (csz L c) = sc (L ^ 3) (toShore pp a bl c) := by
        unfold toShore
        rw [in_sz]
        show (sc L (fin a.Dx) * sc (L ^ 3) bl / sc L (fin pp.OutletSedSpreadDist)) * npmax (fin 1 - (sc L (fin c.t.x) - sc L a.EndX1).abs / sc L (fin pp.OutletSedSpreadDist)) (fin 0) = _
        rw [← sc_sub, ← sc_abs L hL, sc_div_sc hL hL, div_self hL.ne', sc_by_one, sc_mul_sc hL h3, sc_div_sc (by positivity) hL, ← sc_mul_left _ (by positivity)]
        congr 1
        field_simp
      show toShore (resizePars L pp) (resizeIn L a) (sc (L ^ 3) bl) (csz L c) / _ = _
      rw [e]
      exact fall L hL _ _ _
    have hx : ∀ b1 b2 : Bool, ∀ x : Fl K, sc L (if b1 then x else if b2 then -x else fin 0) = if b1 then sc L x else if b2 then -sc L x else fin 0 := by
      intro b1 b2 x
      cases b1 <;> cases b2 <;> simp [sc_neg, sc_zero]
    have hd : fin (resizePars L pp).BeachTopElev - (resizeIn L a).EndElev = sc L (fin pp.BeachTopElev - a.EndElev) := by
      rw [in_sz, sc_sub]; rfl
    have hE : (resizeIn L a).EndWidth = sc L a.EndWidth := by rw [in_sz]
    have b1 : ((resizeIn L a).EndX0 <? (resizeIn L a).EndX1) = (a.EndX0 <? a.EndX1) := by rw [in_sz]; exact sc_blt L hL _ _
    have b2 : ((resizeIn L a).EndX1 <? (resizeIn L a).EndX0) = (a.EndX1 <? a.EndX0) := by rw [in_sz]; exact sc_blt L hL _ _
    have hZ : ((scSec (L ^ 3) e).bedDep - (scSec (L ^ 3) e).bedEro) / ((resizeIn L a).EndWidth * fin (resizeIn L a).Dx) = sc L ((e.bedDep - e.bedEro) / (a.EndWidth * fin a.Dx)) := by
      rw [bedDep_sc _ h3, bedEro_sc _ h3, ← sc_sub, hE]
      exact fall L hL _ _ _
    have hW : (scSec (L ^ 3) e).bankEro / ((fin (resizePars L pp).BeachTopElev - (resizeIn L a).EndElev) * fin (resizePars L pp).SpitWidth) =
        sc L (e.bankEro / ((fin pp.BeachTopElev - a.EndElev) * fin pp.SpitWidth)) := by
      rw [bankEro_sc _ h3, hd]
      exact fall L hL _ _ _
    show Except.ok _ = Except.ok _
    simp only [hZ, hW, hy, hr, b1, b2]
    simp only [scRates, hx, sc_mul_left L hL, sc_div L hL, ← hz]
    rfl
omit hL

/-- Cell by cell, with values and cells changed alike. -/
theorem zipIdx_sz (l : List (Fl K)) (cells : List (Cell K)) (g g' : ℕ → Fl K → Cell K → Fl K) (h : ∀ i v c, g' i (sc L v) (csz L c) = sc L (g i v c)) :
    ((l.map (sc L)).zip (cells.map (csz L))).mapIdx (fun i (v, c) => g' i v c) = ((l.zip cells).mapIdx (fun i (v, c) => g i v c)).map (sc L) := by
  apply ext_getElem?
  intro j
  simp only [getElem?_mapIdx, zip, getElem?_zipWith, getElem?_map]
  cases l[j]? <;> cases cells[j]? <;> first | rfl | exact congrArg some (h _ _ _)

include hL
theorem lstInterior_sz (a : MorIn K) (cells : List (Cell K)) (y0 : List (Fl K)) :
    lstInterior (resizeIn L a) (cells.map (csz L)) (y0.map (sc L)) = (lstInterior a cells y0).map (List.map (sc L)) := by
  have h3 : 0 < L ^ 3 := by positivity
  unfold lstInterior
  rw [in_sz]
  simp only [length_map]
  split
  · rfl
  · refine congrArg Except.ok ?_
    refine zipIdx_sz L y0 cells (fun i v c => if 0 < i ∧ i + 1 < cells.length then v + ((a.LST[i-1]?).getD nan - (a.LST[i]?).getD nan) / (c.sfh * fin a.Dx) else v)
      (fun i v c => if 0 < i ∧ i + 1 < cells.length then v + (((a.LST.map (sc (L ^ 3)))[i-1]?).getD nan - ((a.LST.map (sc (L ^ 3)))[i]?).getD nan) / (c.sfh * fin (L * a.Dx)) else v)
      (fun i v c => ?_)
    simp only [sc_getD, ← sc_sub, apply_ite (sc L), sc_add]
    rw [show (csz L c).sfh = sc L c.sfh from rfl, fall L hL]

theorem lstRates_sz (pp : PhysPars K) (a : MorIn K) (rb : ℕ) (cells : List (Cell K)) (R : Rates K) :
    lstRates (resizePars L pp) (resizeIn L a) rb (cells.map (csz L)) (scRates L R) = (lstRates pp a rb cells R).map (fun r => (scRates L r.1, r.2.map (csz L))) := by
  have h3 : 0 < L ^ 3 := by positivity
  unfold lstRates
  refine bind_mv (lstInterior_sz L hL a cells R.y0) (fun y0 => ?_)
  show (if a.Closed = true then _ else _) = Except.map _ (if a.Closed = true then _ else _)
  split
  · rfl
  · have hlen : (resizeIn L a).LST.length = a.LST.length := length_map _
    have hd : fin (resizePars L pp).BeachTopElev - (resizeIn L a).EndElev = sc L (fin pp.BeachTopElev - a.EndElev) := by
      rw [in_sz, sc_sub]; rfl
    rw [hlen]
    refine bind_mv (g := sc (L ^ 3)) ?_ (fun l => ?_)
    · rw [in_sz]; exact ixGet_map _ _ _
    have hred : sc (L ^ 3) l / ((fin (resizePars L pp).BeachTopElev - (resizeIn L a).EndElev) * fin (resizePars L pp).SpitWidth) =
        sc L (l / ((fin pp.BeachTopElev - a.EndElev) * fin pp.SpitWidth)) := by
      rw [hd]; exact fall L hL _ _ _
    have hredn : -sc (L ^ 3) l / ((fin (resizePars L pp).BeachTopElev - (resizeIn L a).EndElev) * fin (resizePars L pp).SpitWidth) =
        sc L (-l / ((fin pp.BeachTopElev - a.EndElev) * fin pp.SpitWidth)) := by
      rw [hd, ← sc_neg]; exact fall L hL _ _ _
    have hn : (cells.map (csz L)).length = cells.length := length_map _
    rw [hn]
    simp only [sc_blt0 _ h3, hred, hredn]
    split
    · refine bind_mv (ixGet_map (csz L) cells rb) (fun c => ?_)
      have hm : (y0.map (sc L)).modify rb (fun x => x - sc (L ^ 3) l / ((csz L c).sfh * fin (resizeIn L a).Dx)) = (y0.modify rb (fun x => x - l / (c.sfh * fin a.Dx))).map (sc L) :=
        modify_mv (fun x => by rw [sc_sub]; exact congrArg _ (fall L hL _ _ _)) _ _
      show Except.ok _ = Except.ok _
      rw [hm]
      simp only [scRates, sc_sub, sc_add, sc_div L hL]
    · refine bind_mv (ixGet_map (csz L) cells (prevIx cells.length rb)) (fun c => ?_)
      have hm : (cells.map (csz L)).modify (prevIx cells.length rb) (fun c' => { c' with t := { c'.t with y0 := c'.t.y0 + sc (L ^ 3) l / ((csz L c).sfh * fin (resizeIn L a).Dx) } }) =
          (cells.modify (prevIx cells.length rb) (fun c' => { c' with t := { c'.t with y0 := c'.t.y0 + l / (c.sfh * fin a.Dx) } })).map (csz L) := by
        refine modify_mv (fun x => ?_) _ _
        unfold csz
        simp only [row_sz, sc_add]
        rw [← fall L hL]
        rfl
      show Except.ok _ = Except.ok _
      rw [hm]
      simp only [scRates, sc_sub, sc_div L hL]

theorem cstRates_sz (pp : PhysPars K) (a : MorIn K) (cells : List (Cell K)) (R : Rates K) :
    cstRates (resizePars L pp) (resizeIn L a) (cells.map (csz L)) (scRates L R) = (cstRates pp a cells R).map (scRates L) := by
  have h2 : 0 < L ^ 2 := by positivity
  have sq : ∀ a b : Fl K, sc (L ^ 2) a / sc L b = sc L (a / b) := by
    intro a b
    rw [sc_div_sc h2 hL]
    congr 1
    field_simp
  unfold cstRates
  rw [in_sz]
  simp only [length_map]
  split
  · rfl
  · refine congrArg Except.ok ?_
    have h0 := zipIdx_sz L R.y0 cells (fun i v c => if 0 < i ∧ i + 1 < cells.length then v - (a.CST[i]?).getD nan / c.sfh else -(fin pp.ShorelineErosionRate) / fin 31557600)
      (fun i v c => if 0 < i ∧ i + 1 < cells.length then v - ((a.CST.map (sc (L ^ 2)))[i]?).getD nan / c.sfh else -(fin (L * pp.ShorelineErosionRate)) / fin 31557600)
      (fun i v c => by simp only [csz, sc_getD, sq, apply_ite (sc L), sc_sub, sc_div L hL, sc_neg, sc_fin])
    have h1 := zipIdx_sz L R.y1 cells (fun i v c => if c.op then v - (a.OverwashProp[i]?).getD nan * (a.CST[i]?).getD nan / c.bh else v)
      (fun i v c => if c.op then v - (a.OverwashProp[i]?).getD nan * ((a.CST.map (sc (L ^ 2)))[i]?).getD nan / c.bh else v)
      (fun i v c => by simp only [csz, sc_getD, ← sc_mul_right _ h2, sq, apply_ite (sc L), sc_sub])
    have h3 := zipIdx_sz L R.y3 cells (fun i v c => if c.op then v else v - (a.OverwashProp[i]?).getD nan * (a.CST[i]?).getD nan / c.bh)
      (fun i v c => if c.op then v else v - (a.OverwashProp[i]?).getD nan * ((a.CST.map (sc (L ^ 2)))[i]?).getD nan / c.bh)
      (fun i v c => by simp only [csz, sc_getD, ← sc_mul_right _ h2, sq, apply_ite (sc L), sc_sub])
    have hz := zipIdx_sz L R.z0 cells (fun i v c => v + (fin 1 - (a.OverwashProp[i]?).getD nan) * (a.CST[i]?).getD nan / c.cw)
      (fun i v c => v + (fin 1 - (a.OverwashProp[i]?).getD nan) * ((a.CST.map (sc (L ^ 2)))[i]?).getD nan / c.cw)
      (fun i v c => by simp only [csz, sc_getD, ← sc_mul_right _ h2, sq, sc_add])
    unfold scRates
    simp only
    rw [Rates.mk.injEq]
    exact ⟨h0, h1, rfl, h3, rfl, hz, rfl, rfl, rfl, rfl, rfl, rfl⟩

theorem allRates_sz (pp : PhysPars K) (a : MorIn K) (rb : ℕ) (cells : List (Cell K)) :
    allRates (resizePars L pp) (resizeIn L a) rb (cells.map (csz L)) = (allRates pp a rb cells).map (fun r => (scRates L r.1, r.2.map (csz L))) := by
  unfold allRates
  refine bind_mv (riverRates_sz L hL pp a cells) (fun R => ?_)
  refine bind_mv (lstRates_sz L hL pp a rb cells R) (fun r => ?_)
  exact bind_mv (cstRates_sz L hL pp a r.2 r.1) (fun R => rfl)
omit hL

/-! ## The water level plays no part -/

theorem zipIdx_blank (l : List (Fl K)) (cells : List (Cell K)) (g : ℕ → Fl K → Cell K → Fl K) (h : ∀ i v c, g i v (blank c) = g i v c) :
    (l.zip (cells.map blank)).mapIdx (fun i (v, c) => g i v c) = (l.zip cells).mapIdx (fun i (v, c) => g i v c) := by
  apply ext_getElem?
  intro j
  simp only [getElem?_mapIdx, zip, getElem?_zipWith, getElem?_map]
  cases l[j]? <;> cases cells[j]? <;> first | rfl | exact congrArg some (h _ _ _)

theorem allRates_blank (pp : PhysPars K) (a : MorIn K) (rb : ℕ) (cells : List (Cell K)) :
    allRates pp a rb (cells.map blank) = (allRates pp a rb cells).map (fun r => (r.1, r.2.map blank)) := by
  unfold allRates
  refine bind_same ?_ (fun R => ?_)
  · unfold riverRates
    simp only [map_map]
    rfl
  refine bind_mv (g := fun r : Rates K × List (Cell K) => (r.1, r.2.map blank)) ?_ (fun r => ?_)
  · unfold lstRates
    refine bind_same ?_ (fun y0 => ?_)
    · unfold lstInterior
      simp only [length_map]
      split
      · rfl
      · exact congrArg Except.ok (zipIdx_blank _ _ (fun i v c => if 0 < i ∧ i + 1 < cells.length then v + ((a.LST[i-1]?).getD nan - (a.LST[i]?).getD nan) / (c.sfh * fin a.Dx) else v) (fun _ _ _ => rfl))
    split
    · rfl
    · refine bind_same rfl (fun l => ?_)
      rw [length_map]
      split
      · exact bind_mv (ixGet_map blank cells rb) (fun c => rfl)
      · refine bind_mv (ixGet_map blank cells (prevIx cells.length rb)) (fun c => ?_)
        show Except.ok _ = Except.ok _
        rw [modify_mv (f := blank) (g' := fun c' : Cell K => { c' with t := { c'.t with y0 := c'.t.y0 + l / (c.sfh * fin a.Dx) } }) (fun x => rfl)]
  · refine bind_same ?_ (fun R => rfl)
    unfold cstRates
    simp only [length_map]
    split
    · rfl
    · refine congrArg Except.ok ?_
      rw [Rates.mk.injEq]
      exact ⟨zipIdx_blank _ _ (fun i v c => if 0 < i ∧ i + 1 < r.2.length then v - (a.CST[i]?).getD nan / c.sfh else -(fin pp.ShorelineErosionRate) / fin 31557600) (fun _ _ _ => rfl),
        zipIdx_blank _ _ (fun i v c => if c.op then v - (a.OverwashProp[i]?).getD nan * (a.CST[i]?).getD nan / c.bh else v) (fun _ _ _ => rfl), rfl,
        zipIdx_blank _ _ (fun i v c => if c.op then v else v - (a.OverwashProp[i]?).getD nan * (a.CST[i]?).getD nan / c.bh) (fun _ _ _ => rfl), rfl,
        zipIdx_blank _ _ (fun i v c => v + (fin 1 - (a.OverwashProp[i]?).getD nan) * (a.CST[i]?).getD nan / c.cw) (fun _ _ _ => rfl), rfl, rfl, rfl, rfl, rfl, rfl⟩

/-! ## Timestep, limiter and move -/

include hL
theorem adapt_sz (rate : Fl K) (lim : K) (d1 d2 d : ℤ) : adaptDt (sc L rate) (L * lim) d1 d2 d = adaptDt rate lim d1 d2 d := by
  unfold adaptDt
  simp only [← sc_mul_left L hL, ← sc_fin, sc_blt L hL, mul_div_assoc]

theorem limit_sz (rate : Fl K) (lim : K) (d1 dt : ℤ) (R : Rates K) :
    limitRates (sc L rate) (L * lim) d1 dt (scRates L R) = (limitRates rate lim d1 dt R).map (scRates L) := by
  unfold limitRates
  rw [← sc_mul_left L hL, ← sc_fin, sc_blt L hL]
  split
  · refine bind_same rfl (fun _ => ?_)
    split
    · rfl
    · have hm : ∀ (M : K) (l : List (Fl K)), (l.map (sc L)).map (clip (L * M)) = (l.map (clip M)).map (sc L) := fun M l => map_mv (fun r => clip_sc L hL _ r) l
      show Except.ok _ = Except.ok _
      simp only [scRates, mul_div_assoc, hm, clip_sc L hL, pyClip_sc L hL]
  · rfl

theorem move_sz (R : Rates K) (s : Fl K) (i : ℕ) (c : Cell K) : moveCell (scRates L R) s i (csz L c) = csz L (moveCell R s i c) := by
  unfold moveCell csz
  simp only [scRates, row_sz, sc_getD, ← sc_mul_left L hL, ← sc_add]

theorem apply_sz (a : MorIn K) (dt : ℤ) (R : Rates K) (cells : List (Cell K)) :
    applyRates (resizeIn L a) dt (scRates L R) (cells.map (csz L)) = (applyRates a dt R cells).map (ssz L) := by
  unfold applyRates
  rw [in_sz]
  simp only [show (scRates L R).riv = R.riv.map (sc L) from rfl, length_map]
  split
  · rfl
  · refine congrArg Except.ok ?_
    have hc : (cells.map (csz L)).mapIdx (moveCell (scRates L R) (fin (secs dt : K))) = (cells.mapIdx (moveCell R (fin (secs dt : K)))).map (csz L) := by
      rw [mapIdx_of_map, map_of_mapIdx]
      congr 1
      funext i c
      exact move_sz L hL R _ i c
    have hz : zipWith (fun z r => z + r * fin (secs dt : K)) (a.RiverElev.map (sc L)).tail (R.riv.map (sc L)) =
        (zipWith (fun z r => z + r * fin (secs dt : K)) a.RiverElev.tail R.riv).map (sc L) := by
      rw [← map_tail, zipWith_map, map_zipWith]
      simp only [← sc_mul_left L hL, ← sc_add]
    unfold ssz
    rw [hc, hz]
    simp only [map_append, ← map_take, apply_ite (sc L), sc_add, sc_mul_left L hL]
    rfl
omit hL

theorem apply_blank (a : MorIn K) (dt : ℤ) (R : Rates K) (cells : List (Cell K)) :
    applyRates a dt R (cells.map blank) = (applyRates a dt R cells).map blankSt := by
  unfold applyRates
  split
  · rfl
  · refine congrArg Except.ok ?_
    unfold blankSt
    simp only
    rw [mapIdx_of_map, map_of_mapIdx]
    rfl

include hL
/-- **The first half of a step of the scale model.** -/
theorem force_sz (pp : PhysPars K) (a : MorIn K) :
    (forceStage (resizePars L pp) (resizeIn L a)).map (fun r => (r.1, r.2.1, blankSt r.2.2)) = (forceStage pp a).map (fun r => (r.1, r.2.1, ssz L r.2.2)) := by
  unfold forceStage
  rw [precalc_sz L hL]
  cases hp : precalc pp a with
  | error e => rfl
  | ok r =>
    obtain ⟨cells, X0, rb⟩ := r
    have hc : cells = a.rows.mapIdx (mkCell pp a) := by
      unfold precalc at hp
      simp only [bind_ok] at hp
      obtain ⟨_, _, _, _, hp⟩ := hp
      split at hp
      · cases hp
      · split at hp
        · cases hp
        · simp only [bind_ok, pure_ok] at hp
          obtain ⟨_, _, _, _, hp⟩ := hp
          cases hp; rfl
    subst hc
    set cells' := (resizeIn L a).rows.mapIdx (mkCell (resizePars L pp) (resizeIn L a)) with hcells'
    have e := allRates_blank (resizePars L pp) (resizeIn L a) rb cells'
    rw [hcells', rows_blank L hL, allRates_sz L hL, ← hcells'] at e
    show Except.map _ (allRates (resizePars L pp) (resizeIn L a) rb cells' >>= _) = Except.map _ (allRates pp a rb _ >>= _)
    cases h1 : allRates pp a rb (a.rows.mapIdx (mkCell pp a)) with
    | error x =>
      rw [h1] at e
      cases h2 : allRates (resizePars L pp) (resizeIn L a) rb cells' with
      | error y => rw [h2] at e; cases e; rfl
      | ok y => rw [h2] at e; cases e
    | ok x =>
      obtain ⟨R, cs⟩ := x
      rw [h1] at e
      cases h2 : allRates (resizePars L pp) (resizeIn L a) rb cells' with
      | error y => rw [h2] at e; cases e
      | ok y =>
        obtain ⟨R', cs'⟩ := y
        rw [h2] at e
        simp only [Except.map, Except.ok.injEq, Prod.mk.injEq] at e
        obtain ⟨rfl, hcs⟩ := e
        show Except.map _ (maxRate (scRates L R) >>= _) = Except.map _ (maxRate R >>= _)
        rw [maxRate_sc L hL]
        cases maxRate R with
        | error x => rfl
        | ok rate =>
          show Except.map _ (adaptDt (sc L rate) (resizeIn L a).MaxMorChange (resizeIn L a).MorDtMin (resizeIn L a).MorDtMax (resizeIn L a).MorDt >>= _) =
            Except.map _ (adaptDt rate a.MaxMorChange a.MorDtMin a.MorDtMax a.MorDt >>= _)
          rw [show adaptDt (sc L rate) (resizeIn L a).MaxMorChange (resizeIn L a).MorDtMin (resizeIn L a).MorDtMax (resizeIn L a).MorDt =
            adaptDt rate a.MaxMorChange a.MorDtMin a.MorDtMax a.MorDt from adapt_sz L hL rate a.MaxMorChange _ _ _]
          cases adaptDt rate a.MaxMorChange a.MorDtMin a.MorDtMax a.MorDt with
          | error x => rfl
          | ok dt =>
            show Except.map _ (limitRates (sc L rate) (L * a.MaxMorChange) a.MorDtMin dt (scRates L R) >>= _) = Except.map _ (limitRates rate a.MaxMorChange a.MorDtMin dt R >>= _)
            rw [limit_sz L hL]
            cases limitRates rate a.MaxMorChange a.MorDtMin dt R with
            | error x => rfl
            | ok R2 =>
              have e3 := apply_blank (resizeIn L a) dt (scRates L R2) cs'
              rw [← hcs, apply_sz L hL] at e3
              show Except.map _ (applyRates (resizeIn L a) dt (scRates L R2) cs' >>= _) = Except.map _ (applyRates a dt R2 cs >>= _)
              cases h4 : applyRates a dt R2 cs with
              | error x =>
                rw [h4] at e3
                cases h5 : applyRates (resizeIn L a) dt (scRates L R2) cs' with
                | error y => rw [h5] at e3; cases e3; rfl
                | ok y => rw [h5] at e3; cases e3
              | ok x =>
                rw [h4] at e3
                cases h5 : applyRates (resizeIn L a) dt (scRates L R2) cs' with
                | error y => rw [h5] at e3; cases e3
                | ok y =>
                  rw [h5] at e3
                  simp only [Except.map, Except.ok.injEq] at e3
                  show Except.ok (dt, X0, blankSt y) = Except.ok (dt, X0, ssz L x)
                  rw [e3]
end
end Verif.Model
