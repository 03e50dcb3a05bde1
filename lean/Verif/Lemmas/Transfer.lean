import Verif.Lemmas.Moved
import Verif.Spec.Regular
import Mathlib.Algebra.Order.Hom.Ring

set_option autoImplicit false
set_option linter.unusedSectionVars false

/-! # The number system: `updateMorphology` does the same in a larger ordered field

What it computes from numbers of `K` it computes from the same numbers taken as elements of an ordered field `L` that contains `K`.  So a step
worked out with rational numbers is a step of the model over the real numbers. -/

namespace Verif.Model
open Verif Fl List

variable {K L : Type} [Field K] [LinearOrder K] [IsStrictOrderedRing K] [Field L] [LinearOrder L] [IsStrictOrderedRing L]

/-- A value with its finite part taken as an element of `L`. -/
def cv (f : K →+*o L) : Fl K → Fl L
  | nan => nan
  | ninf => ninf
  | pinf => pinf
  | fin x => fin (f x)

section fl
variable (f : K →+*o L)

theorem o_smono : StrictMono f := (OrderHomClass.mono f).strictMono_of_injective (RingHom.injective (f : K →+* L))
theorem o_lt (x y : K) : f x < f y ↔ x < y := (o_smono f).lt_iff_lt
theorem o_le (x y : K) : f x ≤ f y ↔ x ≤ y := (o_smono f).le_iff_le
theorem o_eq (x y : K) : f x = f y ↔ x = y := (o_smono f).injective.eq_iff
theorem o_zero (x : K) : f x = 0 ↔ x = 0 := by rw [← map_zero f, o_eq]
theorem o_pos (x : K) : 0 < f x ↔ 0 < x := by rw [← map_zero f, o_lt]
theorem o_nonneg (x : K) : 0 ≤ f x ↔ 0 ≤ x := by rw [← map_zero f, o_le]
theorem o_abs (x : K) : f |x| = |f x| := by
  rcases le_total 0 x with h | h
  · rw [abs_of_nonneg h, abs_of_nonneg ((o_nonneg f x).mpr h)]
  · rw [abs_of_nonpos h, abs_of_nonpos (by rw [← map_zero f, o_le]; exact h), map_neg]

theorem cv_nan : cv f nan = nan := rfl
theorem cv_fin (x : K) : cv f (fin x) = fin (f x) := rfl
theorem cv_isnan (a : Fl K) : (cv f a).isnan = a.isnan := by cases a <;> rfl
theorem cv_infOfSign (x : K) : cv f (infOfSign x) = infOfSign (f x) := by
  unfold infOfSign
  rw [apply_ite (cv f), apply_ite (cv f)]
  simp only [o_zero, o_pos]
  rfl
theorem cv_neg (a : Fl K) : cv f (-a) = -cv f a := by
  cases a <;> first | rfl | exact congrArg fin (map_neg f _)
theorem cv_add (a b : Fl K) : cv f (a + b) = cv f a + cv f b := by
  cases a <;> cases b <;> first | rfl | exact congrArg fin (map_add f _ _)
theorem cv_sub (a b : Fl K) : cv f (a - b) = cv f a - cv f b := by
  show cv f (a + -b) = cv f a + -cv f b
  rw [cv_add, cv_neg]
theorem cv_mul (a b : Fl K) : cv f (a * b) = cv f a * cv f b := by
  cases a <;> cases b <;> first
    | rfl
    | exact congrArg fin (map_mul f _ _)
    | exact cv_infOfSign f _
    | (refine (cv_infOfSign f _).trans ?_; rw [map_neg]; rfl)
theorem cv_div (a b : Fl K) : cv f (a / b) = cv f a / cv f b := by
  cases a <;> cases b <;> first
    | rfl
    | exact congrArg fin (map_zero f)
    | skip
  case ninf.fin y =>
    show cv f (if 0 ≤ y then ninf else pinf) = if 0 ≤ f y then ninf else pinf
    simp only [apply_ite (cv f), o_nonneg]; rfl
  case pinf.fin y =>
    show cv f (if 0 ≤ y then pinf else ninf) = if 0 ≤ f y then pinf else ninf
    simp only [apply_ite (cv f), o_nonneg]; rfl
  case fin.fin x y =>
    show cv f (if y = 0 then infOfSign x else fin (x / y)) = if f y = 0 then infOfSign (f x) else fin (f x / f y)
    simp only [apply_ite (cv f), o_zero, cv_infOfSign, cv_fin, map_div₀]
theorem cv_blt (a b : Fl K) : (cv f a <? cv f b) = (a <? b) := by
  cases a <;> cases b <;> first | rfl | exact decide_eq_decide.mpr (o_lt f _ _)
theorem cv_ble (a b : Fl K) : (cv f a ≤? cv f b) = (a ≤? b) := by
  cases a <;> cases b <;> first | rfl | exact decide_eq_decide.mpr (o_le f _ _)
theorem cv_beq (a b : Fl K) : (cv f a ==? cv f b) = (a ==? b) := by
  cases a <;> cases b <;> first | rfl | exact decide_eq_decide.mpr (o_eq f _ _)
theorem cv_abs (a : Fl K) : cv f a.abs = (cv f a).abs := by
  cases a <;> first | rfl | exact congrArg fin (o_abs f _)
theorem cv_npmax (a b : Fl K) : cv f (npmax a b) = npmax (cv f a) (cv f b) := by
  unfold npmax; simp only [cv_isnan, cv_blt, apply_ite (cv f)]
theorem cv_npmin (a b : Fl K) : cv f (npmin a b) = npmin (cv f a) (cv f b) := by
  unfold npmin; simp only [cv_isnan, cv_blt, apply_ite (cv f)]
theorem cv_pymax (a b : Fl K) : cv f (pymax a b) = pymax (cv f a) (cv f b) := by
  unfold pymax; simp only [cv_blt, apply_ite (cv f)]
theorem cv_pymin (a b : Fl K) : cv f (pymin a b) = pymin (cv f a) (cv f b) := by
  unfold pymin; simp only [cv_blt, apply_ite (cv f)]
theorem cv_getD (l : List (Fl K)) (i : ℕ) : ((l.map (cv f))[i]?).getD nan = cv f ((l[i]?).getD nan) := by
  rw [getElem?_map]; cases l[i]? <;> rfl
/-- Comparisons with a literal. -/
theorem cv_ltl (x : K) (b : Fl K) : (fin (f x) <? cv f b) = (fin x <? b) := cv_blt f (fin x) b
theorem cv_ltr (a : Fl K) (y : K) : (cv f a <? fin (f y)) = (a <? fin y) := cv_blt f a (fin y)
theorem cv_lel (x : K) (b : Fl K) : (fin (f x) ≤? cv f b) = (fin x ≤? b) := cv_ble f (fin x) b
theorem cv_ler (a : Fl K) (y : K) : (cv f a ≤? fin (f y)) = (a ≤? fin y) := cv_ble f a (fin y)
theorem cv_lit0 : (fin 0 : Fl L) = cv f (fin 0) := (congrArg fin (map_zero f)).symm
end fl

/-- A transect over `L`. -/
def tcv (f : K →+*o L) (t : Transect K) : Transect L :=
  { x := f t.x, y0 := cv f t.y0, y1 := cv f t.y1, y2 := cv f t.y2, y3 := cv f t.y3, y4 := cv f t.y4, z0 := cv f t.z0, z1 := cv f t.z1, z2 := cv f t.z2, z3 := cv f t.z3 }

/-- Parameters over `L`. -/
def ppcv (f : K →+*o L) (p : PhysPars K) : PhysPars L :=
  { Gravity := f p.Gravity, RhoRiv := f p.RhoRiv, RhoSed := f p.RhoSed, GrainSize := f p.GrainSize, CritShieldsStress := f p.CritShieldsStress, VoidRatio := f p.VoidRatio
    RoughnessManning := f p.RoughnessManning, GrainRoughness := f p.GrainRoughness, MPM_coef := f p.MPM_coef, MPM_exp := f p.MPM_exp, K2coef := f p.K2coef
    BreakerCoef := f p.BreakerCoef, WaveDataDepth := f p.WaveDataDepth, OT_coef := f p.OT_coef, OT_exp := f p.OT_exp, BarRatSlope := f p.BarRatSlope, BarRatInt := f p.BarRatInt
    ClosureDepth := f p.ClosureDepth, BackshoreElev := f p.BackshoreElev, MaxOutletElev := f p.MaxOutletElev, MinOutletWidth := f p.MinOutletWidth, RiverWidth := f p.RiverWidth
    SpitWidth := f p.SpitWidth, OutletBankEroFac := f p.OutletBankEroFac, OutletSedSpreadDist := f p.OutletSedSpreadDist, WidthDepthRatio := f p.WidthDepthRatio
    BeachTopElev := f p.BeachTopElev, ShorelineErosionRate := f p.ShorelineErosionRate }

/-- Arguments of the update over `L`. -/
def icv (f : K →+*o L) (a : MorIn K) : MorIn L :=
  { rows := a.rows.map (tcv f), EndX0 := cv f a.EndX0, EndX1 := cv f a.EndX1, EndWidth := cv f a.EndWidth, EndElev := cv f a.EndElev, RiverElev := a.RiverElev.map (cv f)
    online := a.online, outlet := a.outlet, LagoonWL := a.LagoonWL.map (cv f), OutletDep := a.OutletDep.map (cv f), ChanWidth := a.ChanWidth.map (cv f), ChanDep := a.ChanDep.map (cv f)
    ChanFlag := a.ChanFlag, Closed := a.Closed, LST := a.LST.map (cv f), Bedload := a.Bedload.map (cv f), CST := a.CST.map (cv f), OverwashProp := a.OverwashProp.map (cv f)
    MorDt := a.MorDt, MorDtMin := a.MorDtMin, MorDtMax := a.MorDtMax, Dx := f a.Dx, MaxMorChange := f a.MaxMorChange }

/-- The result of the update over `L`. -/
def ocv (f : K →+*o L) (o : MorOut K) : MorOut L :=
  { MorDt := o.MorDt, Breach := o.Breach, rows := o.rows.map (tcv f), EndX0 := cv f o.EndX0, EndX1 := cv f o.EndX1, EndWidth := cv f o.EndWidth, EndElev := cv f o.EndElev
    RiverElev := o.RiverElev.map (cv f) }

/-- A transect with derived quantities over `L`. -/
def ccv (f : K →+*o L) (c : Cell K) : Cell L := { t := tcv f c.t, sfh := cv f c.sfh, cw := cv f c.cw, bh := cv f c.bh, op := c.op, lo := c.lo, wl := cv f c.wl }
/-- The state during the update over `L`. -/
def scv (f : K →+*o L) (s : MorSt K) : MorSt L :=
  { cells := s.cells.map (ccv f), e0 := cv f s.e0, e1 := cv f s.e1, endW := cv f s.endW, endZ := cv f s.endZ, ix := s.ix, riv := s.riv.map (cv f) }
/-- Rates over `L`. -/
def rcv (f : K →+*o L) (R : Rates K) : Rates L :=
  { y0 := R.y0.map (cv f), y1 := R.y1.map (cv f), y2 := R.y2.map (cv f), y3 := R.y3.map (cv f), y4 := R.y4.map (cv f), z0 := R.z0.map (cv f), z1 := R.z1.map (cv f), z3 := R.z3.map (cv f)
    riv := R.riv.map (cv f), endW := cv f R.endW, endZ := cv f R.endZ, endX := cv f R.endX }
/-- A section over `L`. -/
def seccv (f : K →+*o L) (s : Sec K) : Sec L := ⟨cv f s.dvol, s.wide, s.flag⟩
/-- Overwash over `L`. -/
def owcv (f : K →+*o L) (o : Overwash K) : Overwash L := ⟨cv f o.width, cv f o.vol, cv f o.until_, o.front, o.back, o.leveled⟩

/-- Moves `cv` to the leaves. -/
local macro "push" : tactic => `(tactic| simp only [cv_nan, cv_fin, cv_isnan, cv_neg, cv_add, cv_sub, cv_mul, cv_div, cv_abs, cv_npmax, cv_npmin, cv_pymax, cv_pymin, map_one, map_zero, map_ofNat, map_div₀,
  map_mul, map_neg, map_sub, map_add, map_intCast])

section cell
variable (f : K →+*o L) (pp : PhysPars K)

theorem mkCell_cv (a : MorIn K) (i : ℕ) (r : Transect K) : mkCell (ppcv f pp) (icv f a) i (tcv f r) = ccv f (mkCell pp a i r) := by
  simp only [mkCell, icv, ccv, tcv, ppcv, cv_isnan, cv_getD]
  have h1 : ((fin (f pp.MinOutletWidth) : Fl L) <? (cv f r.y3 - cv f r.y4)) = (fin pp.MinOutletWidth <? (r.y3 - r.y4)) := by rw [← cv_sub, cv_ltl]
  rw [h1, cv_blt]
  simp only [apply_ite (cv f)]
  push

theorem cliff_cv (c : Cell K) : cliffCell (ppcv f pp) (ccv f c) = ccv f (cliffCell pp c) := by
  unfold cliffCell
  simp only [ccv, tcv, ppcv, cv_ble]
  split
  · push
  · rfl

theorem negWidth_cv (c : Cell K) : negWidth (ccv f c) = negWidth c := by
  simp only [negWidth, ccv, tcv, cv_blt]

theorem overwashOf_cv (c : Cell K) : overwashOf (ccv f c) = owcv f (overwashOf c) := by
  have h1 : ((fin 0 : Fl L) ≤? (cv f c.t.z2 - cv f c.t.z0)) = (fin 0 ≤? (c.t.z2 - c.t.z0)) := by rw [cv_lit0 f, ← cv_sub, cv_ble]
  have h2 : ((cv f c.t.z2 - cv f c.t.z0) <? (fin 0 : Fl L)) = ((c.t.z2 - c.t.z0) <? fin 0) := by rw [cv_lit0 f, ← cv_sub, cv_blt]
  have h3 : (if (fin 0 ≤? (c.t.z2 - c.t.z0)) = true then (cv f c.t.z2 - cv f c.t.z0) * cv f c.cw else if ((c.t.z2 - c.t.z0) <? fin 0) = true then (cv f c.t.z2 - cv f c.t.z0) * -(cv f c.t.y2 - cv f c.t.y3) else (cv f c.t.z2 - cv f c.t.z0)) =
      cv f (if (fin 0 ≤? (c.t.z2 - c.t.z0)) = true then (c.t.z2 - c.t.z0) * c.cw else if ((c.t.z2 - c.t.z0) <? fin 0) = true then (c.t.z2 - c.t.z0) * -(c.t.y2 - c.t.y3) else (c.t.z2 - c.t.z0)) := by
    simp only [apply_ite (cv f)]; push
  simp only [overwashOf, ccv, tcv, owcv, h1, h2, h3]
  rw [show (cv f c.t.y2 - cv f c.t.y1) * cv f c.bh = cv f ((c.t.y2 - c.t.y1) * c.bh) by push, cv_blt]
  push

theorem overwash_cv (c : Cell K) : overwashCell (ccv f c) = ccv f (overwashCell c) := by
  unfold overwashCell
  rw [negWidth_cv, overwashOf_cv]
  generalize overwashOf c = o
  obtain ⟨w, v, u, fr, ba, le⟩ := o
  split
  · cases fr <;> cases ba <;> cases le <;> simp only [ccv, tcv, owcv, Bool.false_eq_true, if_false, if_true] <;> push
  · rfl

theorem elong_cv (st : MorSt K) (c : Cell K) : elongCell (ppcv f pp) (scv f st) (ccv f c) = ccv f (elongCell pp st c) := by
  simp only [elongCell, ccv, scv, tcv, ppcv]; push

theorem seaPreventCell_cv (c : Cell K) : seaPreventCell (ccv f c) = ccv f (seaPreventCell c) := by
  simp only [seaPreventCell, ccv, tcv]; push

theorem extendCell_cv (c : Cell K) : extendCell (ccv f c) = ccv f (extendCell c) := by
  simp only [extendCell, ccv, tcv]; push

theorem lagoonPreventCell_cv (c : Cell K) : lagoonPreventCell (ppcv f pp) (ccv f c) = ccv f (lagoonPreventCell pp c) := by
  unfold lagoonPreventCell
  simp only [ccv, tcv, ppcv]
  have e : ((cv f c.t.y2 - fin (1/10000)) <? cv f c.t.y4) = ((c.t.y2 - fin (1/10000)) <? c.t.y4) := by
    rw [show (cv f c.t.y2 - fin (1/10000) : Fl L) = cv f (c.t.y2 - fin (1/10000)) by push, cv_blt]
  simp only [e]
  split
  · push
  · push

theorem mergeLagoonCell_cv (c : Cell K) : mergeLagoonCell (ccv f c) = ccv f (mergeLagoonCell c) := by
  simp only [mergeLagoonCell, ccv, tcv]; push

theorem notGreater_cv (a b : Fl K) (m j : Bool) : notGreater (cv f a) (cv f b) m j = notGreater a b m j := by
  simp only [notGreater, cv_blt]

theorem wideEnough_cv (c : Cell K) : wideEnough (ppcv f pp) (ccv f c) = wideEnough pp c := by
  simp only [wideEnough, ccv, tcv, ppcv]
  rw [← cv_sub, cv_lel]

theorem lagoonHit_cv (j : ℕ → Bool) (i : ℕ) (c : Cell K) : lagoonHit j i (ccv f c) = lagoonHit j i c := by
  simp only [lagoonHit, ccv, tcv, notGreater_cv, cv_isnan]

theorem shoreHit_cv (j : ℕ → Bool) (i : ℕ) (c : Cell K) : shoreHit j i (ccv f c) = shoreHit j i c := by
  simp only [shoreHit, ccv, tcv, notGreater_cv, cv_isnan]

theorem mergeShoreCell_cv (c : Cell K) : mergeShoreCell (ppcv f pp) (ccv f c) = ccv f (mergeShoreCell pp c) := by
  simp only [mergeShoreCell, ccv, tcv, ppcv]; push

theorem eroded_cv (t : Transect K) : eroded (tcv f t) = eroded t := by
  simp only [eroded, tcv, cv_ble, cv_blt]

theorem restoreCell_cv (c : Cell K) : restoreCell (ccv f c) = ccv f (restoreCell c) := by
  simp only [restoreCell, ccv, tcv]; push

theorem crestCell_cv (c : Cell K) : crestCell (ccv f c) = ccv f (crestCell c) := by
  unfold crestCell
  rw [apply_ite (ccv f)]
  show (if c.op = true then _ else _) = _
  congr 1
  simp only [ccv, tcv]; push

theorem breachCell_cv (w z : Fl K) (c : Cell K) : breachCell (ppcv f pp) (cv f w) (cv f z) (ccv f c) = ccv f (breachCell pp w z c) := by
  simp only [breachCell, ccv, tcv, ppcv]
  have e : pymin (cv f c.t.y0 - fin (f pp.SpitWidth)) ((cv f c.t.y0 + cv f c.t.y3) / fin 2 + cv f w / fin 2) =
    cv f (pymin (c.t.y0 - fin pp.SpitWidth) ((c.t.y0 + c.t.y3) / fin 2 + w / fin 2)) := by push
  simp only [e, ← cv_sub, cv_ble]
  simp only [apply_ite (cv f)]
  push

theorem keepCell_cv (c : Cell K) : keepCell (ppcv f pp) (ccv f c) = ccv f (keepCell pp c) := by
  unfold keepCell
  simp only [ccv, tcv, ppcv]
  simp only [← cv_sub, cv_ltr]
  split
  · push
  · push

end cell

section rates
variable (f : K →+*o L) (pp : PhysPars K)

theorem precalc_cv (a : MorIn K) : precalc (ppcv f pp) (icv f a) = (precalc pp a).map (fun r => (r.1.map (ccv f), r.2)) := by
  unfold precalc
  refine bind_same ?_ (fun X0 => ?_)
  · refine (firstIx_map (tcv f) (fun r : Transect L => fin r.x ==? fin 0) a.rows).trans ?_
    congr 1
    funext r
    rw [cv_lit0 f]
    exact cv_beq f (fin r.x) (fin 0)
  refine bind_same ?_ (fun rb => ?_)
  · show (if a.Closed = true then _ else _) = _
    congr 1
    refine (firstIx_map (tcv f) (fun r : Transect L => cv f a.EndX1 <? fin r.x) a.rows).trans ?_
    congr 1
    funext r
    exact cv_ltr f _ _
  have hl : (icv f a).rows.length = a.rows.length := length_map _
  have hm : (icv f a).rows.mapIdx (mkCell (ppcv f pp) (icv f a)) = (a.rows.mapIdx (mkCell pp a)).map (ccv f) := by
    apply ext_getElem?
    intro j
    simp only [getElem?_mapIdx, getElem?_map, Option.map_map, show (icv f a).rows = a.rows.map (tcv f) from rfl]
    cases a.rows[j]? with
    | none => rfl
    | some r => exact congrArg some (mkCell_cv f pp a j r)
  rw [hl, hm]
  simp only [show (icv f a).LagoonWL.length = a.LagoonWL.length from length_map _, show (icv f a).OutletDep.length = a.OutletDep.length from length_map _,
    show (icv f a).Closed = a.Closed from rfl, show (icv f a).outlet = a.outlet from rfl]
  split
  · rfl
  · split
    · rfl
    · refine bind_same (congrArg pyAssert (congrArg not (any_mv (f := ccv f) (g := fun c : Cell L => c.wl.isnan) (g' := fun c : Cell K => c.wl.isnan) (fun c => cv_isnan f c.wl) _))) (fun _ => ?_)
      refine bind_same (congrArg pyAssert (all_mv (f := ccv f) (g := fun c : Cell L => fin 0 <? c.cw) (g' := fun c : Cell K => fin 0 <? c.cw) (fun c => ?_) _)) (fun _ => rfl)
      show ((fin 0 : Fl L) <? cv f c.cw) = _
      rw [cv_lit0 f, cv_blt]

theorem ero_cv (s : Sec K) : (seccv f s).ero = cv f s.ero := by
  show -(npmin (cv f s.dvol) (fin 0)) = _
  unfold Sec.ero; push
theorem bedDep_cv (s : Sec K) : (seccv f s).bedDep = cv f s.bedDep := by
  show npmax (cv f s.dvol) (fin 0) = _
  unfold Sec.bedDep; push
theorem bedEro_cv (s : Sec K) : (seccv f s).bedEro = cv f s.bedEro := by
  unfold Sec.bedEro
  rw [ero_cv, cv_mul, apply_ite (cv f)]
  push
  rfl
theorem bankEro_cv (s : Sec K) : (seccv f s).bankEro = cv f s.bankEro := by
  unfold Sec.bankEro
  rw [ero_cv, cv_mul, apply_ite (cv f)]
  push
  rfl

theorem zipWith_cv (g : Fl K → Fl K → Fl K) (g' : Fl L → Fl L → Fl L) (h : ∀ a b, g' (cv f a) (cv f b) = cv f (g a b)) (l m : List (Fl K)) :
    zipWith g' (l.map (cv f)) (m.map (cv f)) = (zipWith g l m).map (cv f) := by
  rw [zipWith_map, map_zipWith]
  congr 1
  funext a b
  exact h a b

theorem sections_cv (a : MorIn K) : sections (ppcv f pp) (icv f a) = (sections pp a).map (List.map (seccv f)) := by
  have hd : (if a.Closed = true then zipWith (· - ·) (icv f a).Bedload ((icv f a).Bedload.tail ++ [fin 0]) else zipWith (· - ·) (icv f a).Bedload.dropLast (icv f a).Bedload.tail) =
      (if a.Closed = true then zipWith (· - ·) a.Bedload (a.Bedload.tail ++ [fin 0]) else zipWith (· - ·) a.Bedload.dropLast a.Bedload.tail).map (cv f) := by
    rw [apply_ite (List.map (cv f))]
    show (if a.Closed = true then zipWith (· - ·) (a.Bedload.map (cv f)) ((a.Bedload.map (cv f)).tail ++ [fin 0]) else zipWith (· - ·) (a.Bedload.map (cv f)).dropLast (a.Bedload.map (cv f)).tail) = _
    rw [cv_lit0 f, show [cv f (fin 0)] = [fin (0:K)].map (cv f) from rfl, ← map_tail, ← map_append, ← map_dropLast,
      zipWith_cv f _ _ (fun a b => (cv_sub f a b).symm), zipWith_cv f _ _ (fun a b => (cv_sub f a b).symm)]
  have hw : ∀ l m : List (Fl K), zipWith (fun w d => fin (ppcv f pp).WidthDepthRatio <? (w / d)) (l.map (cv f)) (m.map (cv f)) = zipWith (fun w d => fin pp.WidthDepthRatio <? (w / d)) l m := by
    intro l m
    rw [zipWith_map]
    congr 1
    funext x y
    rw [← cv_div]
    exact cv_ltl f _ _
  have hw' : zipWith (fun w d => fin (ppcv f pp).WidthDepthRatio <? (w / d)) (if a.Closed = true then (icv f a).ChanWidth.tail else (icv f a).ChanWidth.tail.dropLast)
      (if a.Closed = true then (icv f a).ChanDep.tail else (icv f a).ChanDep.tail.dropLast) =
      zipWith (fun w d => fin pp.WidthDepthRatio <? (w / d)) (if a.Closed = true then a.ChanWidth.tail else a.ChanWidth.tail.dropLast)
      (if a.Closed = true then a.ChanDep.tail else a.ChanDep.tail.dropLast) := by
    rw [← hw, apply_ite (List.map (cv f)), apply_ite (List.map (cv f)), map_tail, map_dropLast, map_tail, map_tail, map_dropLast, map_tail]
    rfl
  unfold sections
  simp only [show (icv f a).ChanWidth.length = a.ChanWidth.length from length_map _, show (icv f a).ChanDep.length = a.ChanDep.length from length_map _,
    show (icv f a).ChanFlag = a.ChanFlag from rfl, show (icv f a).Closed = a.Closed from rfl]
  simp only [hd, hw', length_map]
  rw [apply_ite (Except.map (List.map (seccv f)))]
  congr 1
  show Except.ok _ = Except.ok _
  rw [zipWith_map_left, map_zipWith]
  rfl

theorem scatter_cv (op : Fl K → Fl K → Fl K) (op' : Fl L → Fl L → Fl L) (h : ∀ a b, op' (cv f a) (cv f b) = cv f (op a b)) : ∀ (l : List (Fl K)) (ixs : List ℕ) (vs : List (Fl K)),
    scatter op' (l.map (cv f)) ixs (vs.map (cv f)) = (scatter op l ixs vs).map (List.map (cv f))
  | l, [], [] => rfl
  | l, [], v :: vs => rfl
  | l, i :: is, [] => rfl
  | l, i :: is, v :: vs => by
    rw [map_cons]
    unfold scatter
    refine bind_mv (ixGet_map (cv f) l i) (fun old => ?_)
    rw [h, ← map_set]
    exact scatter_cv op op' h _ is vs

theorem addCol_cv (l : List (Fl K)) (ixs : List ℕ) (ss : List (Sec K)) (rs : List (Transect K)) (g : Sec K → Transect K → Fl K) (g' : Sec L → Transect L → Fl L)
    (h : ∀ s r, g' (seccv f s) (tcv f r) = cv f (g s r)) :
    addCol (l.map (cv f)) ixs (ss.map (seccv f)) (rs.map (tcv f)) g' = (addCol l ixs ss rs g).map (List.map (cv f)) := by
  unfold addCol
  rw [length_map]
  split
  · rfl
  · rw [zipWith_map, show (fun a b => g' (seccv f a) (tcv f b)) = (fun a b => cv f (g a b)) from funext (fun s => funext (fun r => h s r)), ← map_zipWith]
    exact scatter_cv f _ _ (fun a b => (cv_add f a b).symm) _ _ _

theorem lagBank_cv (r : Transect K) : lagBank (tcv f r) = cv f (lagBank r) := by
  unfold lagBank
  rw [apply_ite (cv f)]
  show (if (cv f r.y1).isnan = true then _ else _) = _
  rw [cv_isnan]
  rfl

theorem toShore_cv (a : MorIn K) (bl : Fl K) (c : Cell K) : toShore (ppcv f pp) (icv f a) (cv f bl) (ccv f c) = cv f (toShore pp a bl c) := by
  simp only [toShore, ppcv, icv, ccv, tcv]; push

theorem single_cv (l : List (Sec K)) : (match l.map (seccv f) with | [e] => .ok e | _ => .error .value : Except PyErr (Sec L)) =
    Except.map (seccv f) (match l with | [e] => .ok e | _ => .error .value : Except PyErr (Sec K)) := by
  rcases l with _ | ⟨e, _ | ⟨e', l⟩⟩ <;> rfl

theorem riverRates_cv (a : MorIn K) (cells : List (Cell K)) : riverRates (ppcv f pp) (icv f a) (cells.map (ccv f)) = (riverRates pp a cells).map (rcv f) := by
  unfold riverRates
  have hl : (icv f a).rows.length = a.rows.length := length_map _
  have hz : replicate a.rows.length (fin 0 : Fl L) = (replicate a.rows.length (fin 0 : Fl K)).map (cv f) := by rw [map_replicate, cv_lit0 f]
  rw [hl]
  simp only [hz]
  refine bind_mv (sections_cv f pp a) (fun ss => ?_)
  have hf : ∀ k : ℕ, (ss.map (seccv f)).filter (fun s => s.flag == k) = (ss.filter (fun s => s.flag == k)).map (seccv f) := fun k => filter_mv (fun _ => rfl) ss
  simp only [hf]
  refine bind_mv (gather_mv _ _ _) (fun onRows => ?_)
  refine bind_mv (addCol_cv f _ _ _ _ _ _ (fun s r => by simp only [bedDep_cv, bedEro_cv, tcv, icv]; push)) (fun z3 => ?_)
  refine bind_mv (addCol_cv f _ _ _ _ _ _ (fun s r => by simp only [bankEro_cv, lagBank_cv]; simp only [tcv, icv]; push)) (fun y3 => ?_)
  refine bind_mv (addCol_cv f _ _ _ _ _ _ (fun s r => by simp only [bankEro_cv, tcv, icv, ppcv]; push)) (fun y4 => ?_)
  have hr : ((ss.filter (fun s => s.flag == 0)).map (seccv f)).map (fun s => (s.bedDep - s.ero) / (fin (ppcv f pp).RiverWidth * fin (icv f a).Dx)) =
      ((ss.filter (fun s => s.flag == 0)).map (fun s => (s.bedDep - s.ero) / (fin pp.RiverWidth * fin a.Dx))).map (cv f) :=
    map_mv (fun s => by simp only [bedDep_cv, ero_cv, ppcv, icv]; push) _
  rw [hr]
  show (if a.Closed = true then _ else _) = Except.map _ (if a.Closed = true then _ else _)
  split
  · show Except.ok _ = Except.ok _
    simp only [rcv]
    push
  · refine bind_mv (gather_mv _ _ _) (fun outRows => ?_)
    refine bind_mv (addCol_cv f _ _ _ _ _ _ (fun s r => by simp only [bedDep_cv, bedEro_cv, tcv, icv]; push)) (fun z1 => ?_)
    refine bind_mv (addCol_cv f _ _ _ _ _ _ (fun s r => by simp only [bankEro_cv, tcv, icv]; push)) (fun y1 => ?_)
    refine bind_mv (addCol_cv f _ _ _ _ _ _ (fun s r => by simp only [bankEro_cv, tcv, icv]; push)) (fun y2 => ?_)
    refine bind_mv (g := seccv f) ?_ (fun e => ?_)
    · exact single_cv f _
    refine bind_mv (pyGet_map _ _ _) (fun bl => ?_)
    have hy : (cells.map (ccv f)).map (fun c => toShore (ppcv f pp) (icv f a) (cv f bl) c / (c.sfh * fin (icv f a).Dx)) =
        (cells.map (fun c => toShore pp a bl c / (c.sfh * fin a.Dx))).map (cv f) :=
      map_mv (fun c => by rw [toShore_cv]; simp only [ccv, icv]; push) _
    rw [hy]
    show Except.ok _ = Except.ok _
    simp only [rcv, bankEro_cv, bedDep_cv, bedEro_cv, icv, ppcv, cv_blt, apply_ite (cv f)]
    push

theorem zipIdx_cv (l : List (Fl K)) (cells : List (Cell K)) (g : ℕ → Fl K → Cell K → Fl K) (g' : ℕ → Fl L → Cell L → Fl L) (h : ∀ i v c, g' i (cv f v) (ccv f c) = cv f (g i v c)) :
    ((l.map (cv f)).zip (cells.map (ccv f))).mapIdx (fun i (v, c) => g' i v c) = ((l.zip cells).mapIdx (fun i (v, c) => g i v c)).map (cv f) := by
  apply ext_getElem?
  intro j
  simp only [getElem?_mapIdx, zip, getElem?_zipWith, getElem?_map]
  cases l[j]? <;> cases cells[j]? <;> first | rfl | exact congrArg some (h _ _ _)

theorem lstInterior_cv (a : MorIn K) (cells : List (Cell K)) (y0 : List (Fl K)) :
    lstInterior (icv f a) (cells.map (ccv f)) (y0.map (cv f)) = (lstInterior a cells y0).map (List.map (cv f)) := by
  unfold lstInterior
  simp only [length_map, show (icv f a).LST.length = a.LST.length from length_map _]
  split
  · rfl
  · show Except.ok _ = Except.ok _
    congr 1
    refine zipIdx_cv f y0 cells (fun i v c => if 0 < i ∧ i + 1 < cells.length then v + ((a.LST[i-1]?).getD nan - (a.LST[i]?).getD nan) / (c.sfh * fin a.Dx) else v)
      (fun i v c => if 0 < i ∧ i + 1 < cells.length then v + (((icv f a).LST[i-1]?).getD nan - ((icv f a).LST[i]?).getD nan) / (c.sfh * fin (icv f a).Dx) else v) (fun i v c => ?_)
    simp only [icv, ccv, cv_getD, apply_ite (cv f)]
    push

theorem lstRates_cv (a : MorIn K) (rb : ℕ) (cells : List (Cell K)) (R : Rates K) :
    lstRates (ppcv f pp) (icv f a) rb (cells.map (ccv f)) (rcv f R) = (lstRates pp a rb cells R).map (fun r => (rcv f r.1, r.2.map (ccv f))) := by
  unfold lstRates
  refine bind_mv (lstInterior_cv f a cells R.y0) (fun y0 => ?_)
  simp only [length_map, show (icv f a).LST.length = a.LST.length from length_map _]
  show (if a.Closed = true then _ else _) = Except.map _ (if a.Closed = true then _ else _)
  split
  · rfl
  · refine bind_mv (ixGet_map _ _ _) (fun l => ?_)
    have hc : ((fin 0 : Fl L) <? cv f l) = (fin 0 <? l) := by rw [cv_lit0 f, cv_blt]
    simp only [hc]
    split
    · refine bind_mv (ixGet_map _ _ _) (fun c => ?_)
      show Except.ok _ = Except.ok _
      have hm : (y0.map (cv f)).modify rb (fun x => x - cv f l / ((ccv f c).sfh * fin (f a.Dx))) = (y0.modify rb (fun x => x - l / (c.sfh * fin a.Dx))).map (cv f) :=
        modify_mv (fun x => by simp only [ccv]; push) _ _
      simp only [rcv, ppcv, icv]
      rw [hm]
      push
    · refine bind_mv (ixGet_map _ _ _) (fun c => ?_)
      show Except.ok _ = Except.ok _
      have hm : (cells.map (ccv f)).modify (prevIx cells.length rb) (fun c' => { c' with t := { c'.t with y0 := c'.t.y0 + cv f l / ((ccv f c).sfh * fin (f a.Dx)) } }) =
          (cells.modify (prevIx cells.length rb) (fun c' => { c' with t := { c'.t with y0 := c'.t.y0 + l / (c.sfh * fin a.Dx) } })).map (ccv f) :=
        modify_mv (fun x => by simp only [ccv, tcv]; push) _ _
      simp only [rcv, ppcv, icv]
      rw [hm]
      push

theorem cstRates_cv (a : MorIn K) (cells : List (Cell K)) (R : Rates K) :
    cstRates (ppcv f pp) (icv f a) (cells.map (ccv f)) (rcv f R) = (cstRates pp a cells R).map (rcv f) := by
  unfold cstRates
  simp only [length_map, show (icv f a).CST.length = a.CST.length from length_map _, show (icv f a).OverwashProp.length = a.OverwashProp.length from length_map _]
  split
  · rfl
  · show Except.ok _ = Except.ok _
    have h0 := zipIdx_cv f R.y0 cells (fun i v c => if 0 < i ∧ i + 1 < cells.length then v - (a.CST[i]?).getD nan / c.sfh else -(fin pp.ShorelineErosionRate) / fin 31557600)
      (fun i v c => if 0 < i ∧ i + 1 < cells.length then v - ((icv f a).CST[i]?).getD nan / c.sfh else -(fin (ppcv f pp).ShorelineErosionRate) / fin 31557600)
      (fun i v c => by simp only [icv, ccv, ppcv, cv_getD, apply_ite (cv f)]; push)
    have h1 := zipIdx_cv f R.y1 cells (fun i v c => if c.op then v - (a.OverwashProp[i]?).getD nan * (a.CST[i]?).getD nan / c.bh else v)
      (fun i v c => if c.op then v - ((icv f a).OverwashProp[i]?).getD nan * ((icv f a).CST[i]?).getD nan / c.bh else v)
      (fun i v c => by simp only [icv, ccv, cv_getD, apply_ite (cv f)]; push)
    have h3 := zipIdx_cv f R.y3 cells (fun i v c => if c.op then v else v - (a.OverwashProp[i]?).getD nan * (a.CST[i]?).getD nan / c.bh)
      (fun i v c => if c.op then v else v - ((icv f a).OverwashProp[i]?).getD nan * ((icv f a).CST[i]?).getD nan / c.bh)
      (fun i v c => by simp only [icv, ccv, cv_getD, apply_ite (cv f)]; push)
    have hz := zipIdx_cv f R.z0 cells (fun i v c => v + (fin 1 - (a.OverwashProp[i]?).getD nan) * (a.CST[i]?).getD nan / c.cw)
      (fun i v c => v + (fin 1 - ((icv f a).OverwashProp[i]?).getD nan) * ((icv f a).CST[i]?).getD nan / c.cw)
      (fun i v c => by simp only [icv, ccv, cv_getD]; push)
    congr 1
    unfold rcv
    simp only
    rw [Rates.mk.injEq]
    exact ⟨h0, h1, rfl, h3, rfl, hz, rfl, rfl, rfl, rfl, rfl, rfl⟩

theorem foldl_npmax_cv : ∀ (l : List (Fl K)) (x : Fl K), (l.map (cv f)).foldl npmax (cv f x) = cv f (l.foldl npmax x)
  | [], _ => rfl
  | y :: l, x => by
    rw [map_cons, foldl_cons, foldl_cons, ← cv_npmax]
    exact foldl_npmax_cv l _

theorem foldl_npmin_cv : ∀ (l : List (Fl K)) (x : Fl K), (l.map (cv f)).foldl npmin (cv f x) = cv f (l.foldl npmin x)
  | [], _ => rfl
  | y :: l, x => by
    rw [map_cons, foldl_cons, foldl_cons, ← cv_npmin]
    exact foldl_npmin_cv l _

theorem maxAbs_cv (l : List (Fl K)) : maxAbs (l.map (cv f)) = (maxAbs l).map (cv f) := by
  unfold maxAbs
  rw [map_mv (f' := cv f) (g' := Fl.abs) (fun a => (cv_abs f a).symm)]
  rcases l.map Fl.abs with _ | ⟨x, t⟩
  · rfl
  · exact congrArg Except.ok (foldl_npmax_cv f t x)

theorem maxRate_cv (R : Rates K) : maxRate (rcv f R) = (maxRate R).map (cv f) := by
  unfold maxRate
  refine bind_mv (maxAbs_cv f R.riv) (fun m1 => ?_)
  refine bind_mv (g := cv f) ?_ (fun m2 => ?_)
  · rw [← maxAbs_cv]; simp only [map_append]; rfl
  refine bind_mv (g := cv f) ?_ (fun m3 => ?_)
  · rw [← maxAbs_cv]
    simp only [map_append, map_map]
    rw [show (rcv f R).z0.map (fun _ => (fin 0 : Fl L)) = R.z0.map (cv f ∘ fun _ => (fin 0 : Fl K)) from by
      show (R.z0.map (cv f)).map _ = _
      rw [map_map]; exact map_congr_left (fun a _ => cv_lit0 f)]
    rfl
  show Except.ok _ = Except.ok _
  simp only [rcv]
  push

theorem halve_cv {c c' : ℤ → Bool} (h : ∀ d, c' d = c d) : halve c' = halve c := by rw [show c' = c from funext h]

theorem secs_cv (r : Fl K) (dt : ℤ) : cv f r * fin (secs dt : L) = cv f (r * fin (secs dt : K)) := by push

theorem adaptDt_cv (rate : Fl K) (lim : K) (dtMin dtMax dt : ℤ) : adaptDt (cv f rate) (f lim) dtMin dtMax dt = adaptDt rate lim dtMin dtMax dt := by
  have h2 : f lim / 2 = f (lim / 2) := by rw [map_div₀, map_ofNat]
  unfold adaptDt
  simp only [secs_cv, cv_ltl, h2, cv_ltr]

theorem clip_cv (l : K) (r : Fl K) : clip (f l) (cv f r) = cv f (clip l r) := by
  unfold clip; push
theorem pyClip_cv (l : K) (r : Fl K) : pyClip (f l) (cv f r) = cv f (pyClip l r) := by
  unfold pyClip; push

theorem limitRates_cv (rate : Fl K) (lim : K) (dtMin dt : ℤ) (R : Rates K) :
    limitRates (cv f rate) (f lim) dtMin dt (rcv f R) = (limitRates rate lim dtMin dt R).map (rcv f) := by
  unfold limitRates
  simp only [secs_cv, cv_ltl]
  split
  · refine bind_same rfl (fun _ => ?_)
    split
    · rfl
    · show Except.ok _ = Except.ok _
      have hL : f lim / (secs dt : L) = f (lim / (secs dt : K)) := by rw [map_div₀, map_intCast]
      have hm : ∀ l : List (Fl K), (l.map (cv f)).map (clip (f (lim / (secs dt : K)))) = (l.map (clip (lim / (secs dt : K)))).map (cv f) := fun l => map_mv (fun r => clip_cv f _ r) l
      simp only [rcv, hL, hm, clip_cv, pyClip_cv]
  · rfl

theorem moveCell_cv (R : Rates K) (dt : ℤ) (i : ℕ) (c : Cell K) : moveCell (rcv f R) (fin (secs dt : L)) i (ccv f c) = ccv f (moveCell R (fin (secs dt : K)) i c) := by
  simp only [moveCell, rcv, ccv, tcv, cv_getD]; push

theorem applyRates_cv (a : MorIn K) (dt : ℤ) (R : Rates K) (cells : List (Cell K)) :
    applyRates (icv f a) dt (rcv f R) (cells.map (ccv f)) = (applyRates a dt R cells).map (scv f) := by
  unfold applyRates
  simp only [show (rcv f R).riv.length = R.riv.length from length_map _, show (icv f a).RiverElev.length = a.RiverElev.length from length_map _]
  split
  · rfl
  · show Except.ok _ = Except.ok _
    have h1 : (cells.map (ccv f)).mapIdx (moveCell (rcv f R) (fin (secs dt : L))) = (cells.mapIdx (moveCell R (fin (secs dt : K)))).map (ccv f) := by
      apply ext_getElem?
      intro j
      simp only [getElem?_mapIdx, getElem?_map, Option.map_map]
      cases cells[j]? with
      | none => rfl
      | some c => exact congrArg some (moveCell_cv f R dt j c)
    have h2 : (icv f a).RiverElev.take 1 ++ zipWith (fun z r => z + r * fin (secs dt : L)) (icv f a).RiverElev.tail (rcv f R).riv =
        (a.RiverElev.take 1 ++ zipWith (fun z r => z + r * fin (secs dt : K)) a.RiverElev.tail R.riv).map (cv f) := by
      rw [map_append, ← zipWith_cv f _ _ (fun a b => ?_), map_take, map_tail]
      · rfl
      · push
    rw [h1, h2]
    simp only [scv, icv, rcv, apply_ite (cv f)]
    push
    rfl

theorem allRates_cv (a : MorIn K) (rb : ℕ) (cells : List (Cell K)) :
    allRates (ppcv f pp) (icv f a) rb (cells.map (ccv f)) = (allRates pp a rb cells).map (fun r => (rcv f r.1, r.2.map (ccv f))) := by
  unfold allRates
  refine bind_mv (riverRates_cv f pp a cells) (fun R => ?_)
  refine bind_mv (lstRates_cv f pp a rb cells R) (fun ⟨R, cs⟩ => ?_)
  exact bind_mv (cstRates_cv f pp a cs R) (fun R => rfl)

theorem forceStage_cv (a : MorIn K) : forceStage (ppcv f pp) (icv f a) = (forceStage pp a).map (fun r => (r.1, r.2.1, scv f r.2.2)) := by
  unfold forceStage
  refine bind_mv (precalc_cv f pp a) (fun ⟨cells, X0, rb⟩ => ?_)
  refine bind_mv (allRates_cv f pp a rb cells) (fun ⟨R, cs⟩ => ?_)
  refine bind_mv (maxRate_cv f R) (fun rate => ?_)
  refine bind_same (adaptDt_cv f rate _ _ _ _) (fun dt => ?_)
  refine bind_mv (limitRates_cv f rate _ _ _ R) (fun R => ?_)
  exact bind_mv (applyRates_cv f a dt R cs) (fun st => rfl)

end rates

section repair
variable (f : K →+*o L) (pp : PhysPars K)

theorem edge_cv (st : MorSt K) : edgeCheck (scv f st) = (edgeCheck st).map (scv f) := by
  unfold edgeCheck
  refine bind_mv (ixGet_map _ _ _) (fun c => ?_)
  refine bind_mv (pyGet_map _ _ _) (fun c' => ?_)
  show Except.ok _ = Except.ok _
  have h1 : (if ((scv f st).e1 <? fin (ccv f c).t.x) = true then fin (ccv f c).t.x else (scv f st).e1) = cv f (if (st.e1 <? fin c.t.x) = true then fin c.t.x else st.e1) := by
    rw [apply_ite (cv f)]
    show (if (cv f st.e1 <? cv f (fin c.t.x)) = true then _ else _) = _
    rw [cv_blt]
    rfl
  have h2 : ∀ e, (fin (ccv f c').t.x <? cv f e) = (fin c'.t.x <? e) := fun e => cv_ltl f _ _
  simp only [h1, h2]
  congr 1
  simp only [scv, ccv, tcv, apply_ite (cv f), cv_fin]

theorem overwashRepair_cv (cells : List (Cell K)) : overwashRepair (cells.map (ccv f)) = (overwashRepair cells).map (List.map (ccv f)) := by
  unfold overwashRepair
  have h1 : ((cells.map (ccv f)).filter negWidth).map overwashOf = ((cells.filter negWidth).map overwashOf).map (owcv f) := by
    rw [filter_mv (negWidth_cv f), map_mv (overwashOf_cv f)]
  have h2 : (cells.map (ccv f)).map overwashCell = (cells.map overwashCell).map (ccv f) := map_mv (overwash_cv f) cells
  rw [h1, h2]
  refine bind_same (congrArg pyAssert (all_mv (fun o => ?_) _)) (fun _ => bind_same (congrArg pyAssert (all_mv (fun o => ?_) _)) (fun _ => ?_))
  · show ((fin 0 : Fl L) <? cv f o.vol) = _
    rw [cv_lit0 f, cv_blt]
  · show ((fin 0 : Fl L) ≤? cv f o.until_) = _
    rw [cv_lit0 f, cv_ble]
  have h3 : (((cells.filter negWidth).map overwashOf).map (owcv f)).any (fun o => o.leveled) = ((cells.filter negWidth).map overwashOf).any (fun o => o.leveled) := any_mv (fun _ => rfl) _
  simp only [h3]
  split
  · show Except.ok _ = Except.ok _
    congr 1
    refine map_mv (fun c => ?_) _
    simp only [ccv, tcv, cv_isnan]
  · rfl

theorem outletIx_cv (rows : List (Transect K)) (e0 e1 : Fl K) : outletIx (rows.map (tcv f)) (cv f e0) (cv f e1) = outletIx rows e0 e1 := by
  unfold outletIx
  have h : ∀ a b : Fl K, whereIx (fun r : Transect L => cv f a ≤? fin r.x && fin r.x ≤? cv f b) (rows.map (tcv f)) = whereIx (fun r => a ≤? fin r.x && fin r.x ≤? b) rows := by
    intro a b
    rw [whereIx_map]
    congr 1
    funext r
    show (cv f a ≤? fin (f r.x) && fin (f r.x) ≤? cv f b) = _
    rw [cv_ler, cv_lel]
  rw [cv_blt, h, h]

theorem cellIx_cv (cells : List (Cell K)) (e0 e1 : Fl K) : cellIx (cells.map (ccv f)) (cv f e0) (cv f e1) = cellIx cells e0 e1 := by
  unfold cellIx
  rw [← outletIx_cv f, map_map, map_map]
  rfl

theorem extendChan_cv (st : MorSt K) (m : Transect K → Bool) (m' : Transect L → Bool) (hm : ∀ t, m' (tcv f t) = m t) :
    extendChan (ppcv f pp) (scv f st) m' = (extendChan pp st m).map (scv f) := by
  unfold extendChan
  have h1 : (scv f st).cells.any (fun c => m' c.t) = st.cells.any (fun c => m c.t) := any_mv (f := ccv f) (g := fun c => m' c.t) (fun c => hm c.t) _
  have h2 : (scv f st).cells.map (fun c => if m' c.t then elongCell (ppcv f pp) (scv f st) c else c) = (st.cells.map (fun c => if m c.t then elongCell pp st c else c)).map (ccv f) := by
    refine map_mv (fun c => ?_) _
    show (if m' (tcv f c.t) = true then _ else _) = _
    rw [hm, apply_ite (ccv f)]
    congr 1
    exact elong_cv f pp st c
  simp only [h1, h2]
  split
  · rfl
  · show Except.ok _ = Except.ok _
    unfold scv
    simp only [cellIx_cv]

theorem elongate_cv (C : Bool) (st : MorSt K) : elongate (ppcv f pp) C (scv f st) = (elongate pp C st).map (scv f) := by
  unfold elongate
  split
  · rfl
  · refine bind_same rfl (fun last => ?_)
    refine bind_mv (ixGet_map _ _ _) (fun c => ?_)
    show (if (cv f st.e0 <? cv f st.e1) = true then _ else _) = Except.map _ (if (st.e0 <? st.e1) = true then _ else _)
    rw [cv_blt]
    split
    · refine bind_mv (ixGet_map _ _ _) (fun c' => ?_)
      show (if (fin (f c'.t.x) ≤? cv f st.e1) = true then _ else _) = Except.map _ (if (fin c'.t.x ≤? st.e1) = true then _ else _)
      rw [cv_lel]
      split
      · refine extendChan_cv f pp st _ _ (fun t => ?_)
        show ((fin (f c.t.x) : Fl L) <? fin (f t.x) && fin (f t.x) ≤? cv f st.e1) = _
        rw [cv_lel]
        congr 1
        exact cv_ltl f c.t.x (fin t.x)
      · rfl
    · refine bind_mv (g := ccv f) ?_ (fun c' => ?_)
      · show ixGet (st.cells.map (ccv f)) (prevIx (st.cells.map (ccv f)).length last) = _
        rw [length_map, ixGet_map]
      show (if (cv f st.e1 ≤? fin (f c'.t.x)) = true then _ else _) = Except.map _ (if (st.e1 ≤? fin c'.t.x) = true then _ else _)
      rw [cv_ler]
      split
      · refine extendChan_cv f pp st _ _ (fun t => ?_)
        show ((fin (f t.x) : Fl L) <? fin (f c.t.x) && cv f st.e1 ≤? fin (f t.x)) = _
        rw [cv_ler]
        congr 1
        exact cv_ltl f t.x (fin c.t.x)
      · rfl

theorem seaPrevent_cv (C : Bool) (st : MorSt K) : seaPrevent C (scv f st) = (seaPrevent C st).map (scv f) := by
  unfold seaPrevent
  split
  · rfl
  · refine bind_same rfl (fun i => ?_)
    refine bind_mv (ixGet_map _ _ _) (fun c => ?_)
    show (if (cv f c.t.y0 ≤? cv f c.t.y1) = true then _ else _) = _
    rw [cv_ble]
    split
    · show Except.ok _ = Except.ok _
      unfold scv
      simp only
      rw [modify_mv (f := ccv f) (seaPreventCell_cv f)]
    · rfl

theorem ixWhere_cv (cells : List (Cell K)) (ix : List ℕ) (p : Transect K → Bool) (p' : Transect L → Bool) (hp : ∀ t, p' (tcv f t) = p t) :
    ixWhere (cells.map (ccv f)) ix p' = ixWhere cells ix p := by
  unfold ixWhere
  apply filter_congr
  intro i _
  rw [getElem?_map]
  cases cells[i]? with
  | none => rfl
  | some c => exact hp c.t

theorem mapIdx_cv {α β : Type} {g : α → β} {h : ℕ → β → β} {h' : ℕ → α → α} (hh : ∀ i a, h i (g a) = g (h' i a)) (l : List α) : (l.map g).mapIdx h = (l.mapIdx h').map g := by
  apply ext_getElem?
  intro j
  simp only [getElem?_mapIdx, getElem?_map, Option.map_map]
  cases l[j]? with
  | none => rfl
  | some a => exact congrArg some (hh j a)

theorem extendList_cv (cells : List (Cell K)) (ext : List ℕ) : modifyIf (fun j => ext.contains j) (fun _ => extendCell) (cells.map (ccv f)) =
    (modifyIf (fun j => ext.contains j) (fun _ => extendCell) cells).map (ccv f) := by
  unfold modifyIf
  refine mapIdx_cv (fun i c => ?_) _
  simp only [apply_ite (ccv f), extendCell_cv]

theorem lagoonTrunc_cv (st : MorSt K) : lagoonTrunc (scv f st) = (lagoonTrunc st).map (scv f) := by
  unfold lagoonTrunc
  show (if st.ix.length ≤ 1 then _ else _) = _
  split
  · rfl
  · have h1 : ixWhere (scv f st).cells (scv f st).ix.dropLast (fun t => t.y2 ≤? t.y3) = ixWhere st.cells st.ix.dropLast (fun t => t.y2 ≤? t.y3) :=
      ixWhere_cv f _ _ _ _ (fun t => cv_ble f _ _)
    rw [h1]
    split
    · rfl
    · rename_i i _ _
      refine bind_mv (ixGet_map _ _ _) (fun c => ?_)
      refine bind_mv (g := ccv f) ?_ (fun nb => ?_)
      · show (if (cv f st.e0 <? cv f st.e1) = true then _ else _) = Except.map _ (if (st.e0 <? st.e1) = true then _ else _)
        rw [cv_blt]
        split
        · exact ixGet_map _ _ _
        · show ixGet (st.cells.map (ccv f)) (prevIx (st.cells.map (ccv f)).length i) = _
          rw [length_map, ixGet_map]
      have h2 : cellIx (scv f st).cells (fin (ccv f nb).t.x) (scv f st).e1 = cellIx st.cells (fin nb.t.x) st.e1 := cellIx_cv f st.cells (fin nb.t.x) st.e1
      simp only [h2]
      refine bind_same rfl (fun _ => ?_)
      show (if (cv f c.t.y2 ≤? cv f c.t.y4) = true then _ else _) = _
      rw [cv_ble]
      split
      · refine bind_same ?_ (fun ext => ?_)
        · show (if ((fin 0 : Fl L) <? fin (f c.t.x)) = true then _ else _) = _
          have hx : ((fin 0 : Fl L) <? fin (f c.t.x)) = (fin 0 <? fin c.t.x) := by rw [cv_lit0 f]; exact cv_blt f (fin 0) (fin c.t.x)
          have hp : (fun c : Cell K => (ccv f c).t.y4 <? (ccv f c).t.y3) = (fun c : Cell K => c.t.y4 <? c.t.y3) := funext (fun c => cv_blt f _ _)
          rw [hx]
          split
          · show (lastIx _ (st.cells.map (ccv f)) >>= _) = _
            rw [lastIx_map, hp]
          · show (firstIx _ (st.cells.map (ccv f)) >>= _) = _
            rw [firstIx_map, hp]
        · show Except.ok _ = Except.ok _
          unfold scv
          simp only [extendList_cv]
          rfl
      · rfl

theorem seaTrunc_cv (Dx : K) (st : MorSt K) : seaTrunc (f Dx) (scv f st) = (seaTrunc Dx st).map (scv f) := by
  unfold seaTrunc
  show (if st.ix.length ≤ 1 then _ else _) = _
  split
  · rfl
  · have h1 : ∀ ix, ixWhere (scv f st).cells ix (fun t => t.y0 ≤? t.y1) = ixWhere st.cells ix (fun t => t.y0 ≤? t.y1) :=
      fun ix => ixWhere_cv f _ _ _ _ (fun t => cv_ble f _ _)
    have h2 : ∀ a b : Fl K, whereIx (fun c : Cell L => cv f a ≤? fin c.t.x && fin c.t.x ≤? cv f b) (st.cells.map (ccv f)) = whereIx (fun c : Cell K => a ≤? fin c.t.x && fin c.t.x ≤? b) st.cells := by
      intro a b
      rw [whereIx_map]
      congr 1
      funext c
      show (cv f a ≤? fin (f c.t.x) && fin (f c.t.x) ≤? cv f b) = _
      rw [cv_ler, cv_lel]
    simp only [h1, show (scv f st).ix = st.ix from rfl, show (scv f st).e0 = cv f st.e0 from rfl, show (scv f st).e1 = cv f st.e1 from rfl, cv_blt]
    split
    · rfl
    · split
      · refine bind_same rfl (fun i => ?_)
        refine bind_mv (ixGet_map _ _ _) (fun c => ?_)
        show Except.ok _ = Except.ok _
        have he : (fin (ccv f c).t.x - fin (f Dx / 2) : Fl L) = cv f (fin c.t.x - fin (Dx / 2)) := by
          show (fin (f c.t.x) - fin (f Dx / 2) : Fl L) = _
          push
        unfold scv
        simp only [he, h2]
      · refine bind_same rfl (fun i => ?_)
        refine bind_mv (ixGet_map _ _ _) (fun c => ?_)
        show Except.ok _ = Except.ok _
        have he : (fin (ccv f c).t.x + fin (f Dx / 2) : Fl L) = cv f (fin c.t.x + fin (Dx / 2)) := by
          show (fin (f c.t.x) + fin (f Dx / 2) : Fl L) = _
          push
        unfold scv
        simp only [he, h2]

theorem lagoonPrevent_cv (C : Bool) (st : MorSt K) : lagoonPrevent (ppcv f pp) C (scv f st) = (lagoonPrevent pp C st).map (scv f) := by
  unfold lagoonPrevent
  split
  · rfl
  · refine bind_same rfl (fun i => ?_)
    refine bind_mv (ixGet_map _ _ _) (fun c => ?_)
    show (if (cv f c.t.y2 ≤? cv f c.t.y3) = true then _ else _) = _
    rw [cv_ble]
    split
    · show Except.ok _ = Except.ok _
      unfold scv
      simp only
      rw [modify_mv (f := ccv f) (lagoonPreventCell_cv f pp)]
    · rfl

theorem repairStage_cv (C : Bool) (Dx : K) (st : MorSt K) : repairStage (ppcv f pp) C (f Dx) (scv f st) = (repairStage pp C Dx st).map (scv f) := by
  unfold repairStage
  refine bind_mv (edge_cv f st) (fun s1 => ?_)
  refine bind_mv (g := List.map (ccv f)) ?_ (fun cs => ?_)
  · show overwashRepair ((s1.cells.map (ccv f)).map (cliffCell (ppcv f pp))) = _
    rw [map_mv (cliff_cv f pp), overwashRepair_cv]
  refine bind_mv (g := scv f) (elongate_cv f pp C { s1 with cells := cs }) (fun s2 => ?_)
  refine bind_mv (seaPrevent_cv f C s2) (fun s3 => ?_)
  refine bind_mv (lagoonTrunc_cv f s3) (fun s4 => ?_)
  refine bind_mv (seaTrunc_cv f Dx s4) (fun s5 => ?_)
  exact lagoonPrevent_cv f pp C s5

end repair

section breach
variable (f : K →+*o L) (pp : PhysPars K)

theorem mergeLagoon_cv (j : ℕ → Bool) (cells : List (Cell K)) : mergeLagoon j (cells.map (ccv f)) = (mergeLagoon j cells).map (ccv f) := by
  unfold mergeLagoon
  refine mapIdx_cv (fun i c => ?_) _
  rw [lagoonHit_cv, apply_ite (ccv f)]
  congr 1
  exact mergeLagoonCell_cv f c

theorem find_getElem_cv (l : List (Fl K)) (p : Fl K → Bool) (p' : Fl L → Bool) (h : ∀ a, p' (cv f a) = p a) :
    (range (l.map (cv f)).length).find? (fun i => ((l.map (cv f))[i]?).any p') = (range l.length).find? (fun i => (l[i]?).any p) := by
  rw [length_map]
  congr 1
  funext i
  rw [getElem?_map]
  cases l[i]? with
  | none => rfl
  | some a => exact h a

theorem argmin_cv (l : List (Fl K)) : argmin (l.map (cv f)) = argmin l := by
  unfold argmin
  rw [find_getElem_cv f l _ _ (cv_isnan f), find_getElem_cv f l _ _ (fun a => all_mv (fun b => cv_ble f a b) l)]

theorem argmax_cv (l : List (Fl K)) : argmax (l.map (cv f)) = argmax l := by
  unfold argmax
  rw [find_getElem_cv f l _ _ (cv_isnan f), find_getElem_cv f l _ _ (fun a => all_mv (fun b => cv_ble f b a) l)]

theorem walk_cv (dir : ℤ) : ∀ (n : ℕ) (c : ℤ) (cells : List (Cell K)),
    walk (ppcv f pp) dir n c (cells.map (ccv f)) = (walk pp dir n c cells).map (fun r => (r.1, r.2.map (ccv f)))
  | 0, _, _ => rfl
  | n + 1, c, cells => by
    unfold walk
    rw [length_map]
    split
    · rfl
    · rename_i j _
      refine bind_mv (ixGet_map _ _ _) (fun nxt => ?_)
      rw [wideEnough_cv]
      split
      · split
        · rfl
        · refine bind_mv (ixGet_map _ _ _) (fun cur => ?_)
          have hm : ((cells.map (ccv f)).modify j fun x => { x with wl := (ccv f cur).wl }) = (cells.modify j fun x => { x with wl := cur.wl }).map (ccv f) :=
            modify_mv (f := ccv f) (g := fun x => { x with wl := (ccv f cur).wl }) (g' := fun x => { x with wl := cur.wl }) (fun _ => rfl) _ _
          rw [hm]
          exact walk_cv dir n _ _
      · rfl

theorem dist_cv (x : K) (e : Fl K) : (fin (f x) - cv f e).abs = cv f (fin x - e).abs := by push

theorem connStart_cv (C : Bool) (X0 : ℕ) (st : MorSt K) : connStart (ppcv f pp) C X0 (scv f st) = (connStart pp C X0 st).map (fun r => (r.1, cv f r.2)) := by
  unfold connStart
  split
  · refine bind_same rfl (fun lo => bind_same rfl (fun hi => rfl))
  · show (if (!(cv f st.e0).isnan) = true then _ else _) = _
    rw [cv_isnan]
    split
    · have h1 : (scv f st).cells.map (fun c => (fin c.t.x - (scv f st).e0).abs) = (st.cells.map (fun c => (fin c.t.x - st.e0).abs)).map (cv f) :=
        map_mv (f := ccv f) (fun c => dist_cv f c.t.x st.e0) _
      simp only [h1, argmin_cv]
      refine bind_mv (ixGet_map _ _ _) (fun c => ?_)
      rw [wideEnough_cv]
      have h2 : (((scv f st).cells.take (max (argmin (st.cells.map (fun c => (fin c.t.x - st.e0).abs))) X0 + 1)).drop (min (argmin (st.cells.map (fun c => (fin c.t.x - st.e0).abs))) X0)).all (fun c => c.lo) =
          ((st.cells.take (max (argmin (st.cells.map (fun c => (fin c.t.x - st.e0).abs))) X0 + 1)).drop (min (argmin (st.cells.map (fun c => (fin c.t.x - st.e0).abs))) X0)).all (fun c => c.lo) := by
        show (((st.cells.map (ccv f)).take _).drop _).all _ = _
        rw [← map_take, ← map_drop, all_mv (f := ccv f) (g := fun c : Cell L => c.lo) (g' := fun c : Cell K => c.lo) (fun _ => rfl)]
      simp only [h2]
      split
      · rfl
      · split
        · rfl
        · rfl
    · rfl

theorem connected_cv (C : Bool) (X0 : ℕ) (st : MorSt K) : connected (ppcv f pp) C X0 (scv f st) = (connected pp C X0 st).map (fun r => (r.1, scv f r.2)) := by
  unfold connected
  refine bind_mv (connStart_cv f pp C X0 st) (fun ⟨mm, e0⟩ => ?_)
  have hn : ∀ cells : List (Cell K), (cells.map (ccv f)).any (fun c => c.wl.isnan) = cells.any (fun c => c.wl.isnan) := fun cells => any_mv (f := ccv f) (fun c => cv_isnan f c.wl) _
  cases mm with
  | none =>
    refine bind_same ?_ (fun _ => rfl)
    exact congrArg pyAssert (congrArg not (hn _))
  | some p =>
    obtain ⟨lo, hi⟩ := p
    simp only
    rw [show (scv f st).cells.length = st.cells.length from length_map _]
    refine bind_mv (walk_cv f pp _ _ _ _) (fun ⟨l1, c1⟩ => ?_)
    refine bind_mv (walk_cv f pp _ _ _ _) (fun ⟨l2, c2⟩ => ?_)
    exact bind_same (congrArg pyAssert (congrArg not (hn _))) (fun _ => rfl)

theorem relicBreach_cv (C : Bool) (conn : Option (ℤ × ℤ)) (e0 : Fl K) (hit : List Bool) (cells : List (Cell K)) :
    relicBreach C conn (cv f e0) hit (cells.map (ccv f)) = relicBreach C conn e0 hit cells := by
  unfold relicBreach
  simp only [length_map]
  split
  · refine bind_cong (gather_mv _ _ _) (fun cs => ?_)
    rw [map_mv (f := ccv f) (g := fun c : Cell L => (fin c.t.x - cv f e0).abs) (g' := fun c : Cell K => (fin c.t.x - e0).abs) (fun c => dist_cv f c.t.x e0), argmin_cv]
  · rfl

theorem mergeShore_cv (j : ℕ → Bool) (C : Bool) (conn : Option (ℤ × ℤ)) (st : MorSt K) :
    mergeShore (ppcv f pp) j C conn (scv f st) = (mergeShore pp j C conn st).map (fun r => (r.1, scv f r.2)) := by
  unfold mergeShore
  have h1 : (scv f st).cells.mapIdx (shoreHit j) = st.cells.mapIdx (shoreHit j) := by
    apply ext_getElem?
    intro i
    simp only [scv, getElem?_mapIdx, getElem?_map, Option.map_map]
    cases st.cells[i]? with
    | none => rfl
    | some c => exact congrArg some (shoreHit_cv f j i c)
  rw [h1]
  simp only
  split
  · rfl
  · refine bind_same (relicBreach_cv f C conn _ _ _) (fun b => ?_)
    rw [show (scv f st).cells.length = st.cells.length from length_map _]
    have hz : ∀ hit : List Bool, ((scv f st).cells.zip hit).map (fun (c, h) => if h then mergeShoreCell (ppcv f pp) c else c) =
        ((st.cells.zip hit).map (fun (c, h) => if h then mergeShoreCell pp c else c)).map (ccv f) := by
      intro hit
      apply ext_getElem?
      intro i
      simp only [scv, getElem?_map, zip, zipWith_map_left, getElem?_zipWith]
      cases st.cells[i]? with
      | none => rfl
      | some c =>
        cases hit[i]? with
        | none => rfl
        | some h =>
          show some (if h = true then _ else _) = some (ccv f (if h = true then _ else _))
          rw [apply_ite (ccv f), mergeShoreCell_cv]
    simp only [hz]
    cases b with
    | none =>
      simp only
      split
      · rfl
      · rfl
    | some b =>
      simp only
      split
      · rfl
      · rfl

theorem absX_cv (cells : List (Cell K)) (ix : List ℕ) : absX (cells.map (ccv f)) ix = (absX cells ix).map (cv f) := by
  unfold absX
  rw [map_filterMap]
  congr 1
  funext i
  rw [getElem?_map]
  cases cells[i]? with
  | none => rfl
  | some c => exact congrArg some (cv_abs f (fin c.t.x)).symm

theorem erosionBreaches_cv (C : Bool) (e0 : Fl K) (xs : List (Fl K)) : erosionBreaches C (cv f e0) (xs.map (cv f)) = erosionBreaches C e0 xs := by
  unfold erosionBreaches
  cases xs with
  | nil => rfl
  | cons x t =>
    simp only [map_cons, isEmpty_cons, foldl_npmin_cv, ← cv_abs, cv_blt]

theorem erosionDecide_cv (C : Bool) (b : Option ℕ) (e0 : Fl K) (cells : List (Cell K)) (ero poss : List ℕ) :
    erosionDecide C b (cv f e0) (cells.map (ccv f)) ero poss = erosionDecide C b e0 cells ero poss := by
  unfold erosionDecide
  simp only [absX_cv, erosionBreaches_cv, argmin_cv]

theorem erosionBreach_cv (C : Bool) (X0 : ℕ) (b : Option ℕ) (st : MorSt K) :
    erosionBreach C X0 b (scv f st) = (erosionBreach C X0 b st).map (fun r => (r.1, scv f r.2)) := by
  unfold erosionBreach
  have h1 : whereIx (fun c : Cell L => eroded c.t) (scv f st).cells = whereIx (fun c : Cell K => eroded c.t) st.cells :=
    (whereIx_map (ccv f) _ _).trans (whereIx_congr (fun c : Cell K => eroded_cv f c.t) _)
  have h2 : (scv f st).cells.map (fun c => c.lo) = st.cells.map (fun c => c.lo) := map_same (f := ccv f) (fun _ => rfl) _
  simp only [h1, h2]
  split
  · rfl
  · refine bind_same (erosionDecide_cv f C b _ _ _ _) (fun ⟨b, rest⟩ => ?_)
    show Except.ok _ = Except.ok _
    unfold scv modifyIf
    simp only
    rw [mapIdx_cv (g := ccv f) (h' := fun i c => if rest.contains i then restoreCell c else c) (fun i c => ?_)]
    rw [apply_ite (ccv f)]
    congr 1
    exact restoreCell_cv f c

theorem overtopBreach_cv (C : Bool) (X0 : ℕ) (conn : Option (ℤ × ℤ)) (b : Option ℕ) (st : MorSt K) :
    overtopBreach (ppcv f pp) C X0 conn b (scv f st) = (overtopBreach pp C X0 conn b st).map (fun r => (r.1, scv f r.2)) := by
  unfold overtopBreach
  have h0 : (scv f st).cells.map crestCell = (st.cells.map crestCell).map (ccv f) := map_mv (crestCell_cv f) _
  rw [h0]
  generalize st.cells.map crestCell = cs
  have h1 : (cs.map (ccv f)).any (fun c => c.t.z0.isnan) = cs.any (fun c => c.t.z0.isnan) := any_mv (f := ccv f) (fun c => cv_isnan f c.t.z0) _
  have h2 : whereIx (fun c : Cell L => c.t.z0 <? c.wl) (cs.map (ccv f)) = whereIx (fun c : Cell K => c.t.z0 <? c.wl) cs :=
    (whereIx_map _ _ _).trans (whereIx_congr (fun c => cv_blt f _ _) _)
  have h3 : (cs.map (ccv f)).map (fun c => fin (ppcv f pp).MinOutletWidth <? (c.t.y3 - c.t.y4)) = cs.map (fun c => fin pp.MinOutletWidth <? (c.t.y3 - c.t.y4)) :=
    map_same (fun c => by simp only [ccv, tcv, ppcv]; rw [← cv_sub, cv_ltl]) _
  simp only [h1, h2, h3]
  refine bind_same rfl (fun _ => ?_)
  split
  · rfl
  · split
    · split <;> rfl
    · refine bind_mv (gather_mv _ _ _) (fun gs => ?_)
      rw [map_mv (f := ccv f) (g := fun c : Cell L => c.wl - c.t.z0) (g' := fun c : Cell K => c.wl - c.t.z0) (fun c => (cv_sub f c.wl c.t.z0).symm), argmax_cv]
      exact bind_same rfl (fun k => rfl)

theorem createBreach_cv (conn : Option (ℤ × ℤ)) (b : Option ℕ) (st : MorSt K) : createBreach (ppcv f pp) conn b (scv f st) = (createBreach pp conn b st).map (scv f) := by
  unfold createBreach
  split
  · rfl
  · refine bind_mv (ixGet_map _ _ _) (fun c => ?_)
    rw [show (scv f st).cells.length = st.cells.length from length_map _]
    split
    · rfl
    · show Except.ok _ = Except.ok _
      have hw : pymax (scv f st).endW (fin (2 * (ppcv f pp).MinOutletWidth)) = cv f (pymax st.endW (fin (2 * pp.MinOutletWidth))) := by
        simp only [scv, ppcv]; push
      have hz : pymin (scv f st).endZ (fin (ppcv f pp).MaxOutletElev) = cv f (pymin st.endZ (fin pp.MaxOutletElev)) := by
        simp only [scv, ppcv]; push
      simp only [hw, hz]
      unfold scv
      simp only
      rw [modify_mv (f := ccv f) (breachCell_cv f pp _ _)]
      rfl

theorem breachStage_cv (j1 j2 : ℕ → Bool) (C : Bool) (X0 : ℕ) (st : MorSt K) :
    breachStage (ppcv f pp) j1 j2 C X0 (scv f st) = (breachStage pp j1 j2 C X0 st).map (fun r => (r.1, scv f r.2)) := by
  unfold breachStage
  have h0 : ({ scv f st with cells := mergeLagoon j1 (scv f st).cells } : MorSt L) = scv f { st with cells := mergeLagoon j1 st.cells } := by
    unfold scv
    simp only [mergeLagoon_cv]
  simp only [h0]
  refine bind_mv (connected_cv f pp C X0 _) (fun ⟨conn, s1⟩ => ?_)
  refine bind_mv (mergeShore_cv f pp j2 C conn s1) (fun ⟨b1, s2⟩ => ?_)
  refine bind_mv (erosionBreach_cv f C X0 b1 s2) (fun ⟨b2, s3⟩ => ?_)
  refine bind_mv (overtopBreach_cv f pp C X0 conn b2 s3) (fun ⟨b3, s4⟩ => ?_)
  exact bind_mv (createBreach_cv f pp conn b3 s4) (fun s5 => rfl)

theorem finishStage_cv (X0 : ℕ) (st : MorSt K) : finishStage (ppcv f pp) X0 (scv f st) = (finishStage pp X0 st).map (scv f) := by
  unfold finishStage
  have h0 : (scv f st).cells.modify X0 (keepCell (ppcv f pp)) = (st.cells.modify X0 (keepCell pp)).map (ccv f) := modify_mv (keepCell_cv f pp) _ _
  rw [h0]
  generalize st.cells.modify X0 (keepCell pp) = cs
  refine bind_same (congrArg pyAssert (all_mv (fun c => by simp only [ccv, tcv, cv_isnan]) _)) (fun _ => ?_)
  refine bind_same (congrArg pyAssert (all_mv (fun c => by simp only [ccv, tcv, cv_isnan]) _)) (fun _ => ?_)
  exact bind_same (congrArg pyAssert (all_mv (fun c => by simp only [ccv, tcv, cv_isnan]) _)) (fun _ => rfl)

/-- `updateMorphology` over a larger ordered field. -/
theorem update_cv (j1 j2 : ℕ → Bool) (a : MorIn K) : updateMorphology (ppcv f pp) j1 j2 (icv f a) = (updateMorphology pp j1 j2 a).map (ocv f) := by
  unfold updateMorphology
  refine bind_mv (forceStage_cv f pp a) (fun ⟨dt, X0, s0⟩ => ?_)
  refine bind_mv (repairStage_cv f pp _ _ s0) (fun s1 => ?_)
  refine bind_mv (breachStage_cv f pp j1 j2 _ X0 s1) (fun ⟨b, s2⟩ => ?_)
  refine bind_mv (finishStage_cv f pp X0 s2) (fun s3 => ?_)
  show Except.ok _ = Except.ok _
  unfold scv ocv
  simp only [map_map]
  rfl

end breach

section regular
open Verif.Spec
variable (f : K →+*o L)

theorem number_cv (v : Fl K) : IsNumber (cv f v) ↔ IsNumber v := by cases v <;> exact Iff.rfl
theorem apart_cv (u v : Fl K) : Apart (cv f u) (cv f v) ↔ Apart u v := by
  cases u <;> cases v <;> first | exact Iff.rfl | exact not_congr (o_eq f _ _)
theorem apart_cv_r (u : Fl K) (y : K) : Apart (cv f u) (fin (f y)) ↔ Apart u (fin y) := apart_cv f u (fin y)
theorem apart_cv_l (x : K) (v : Fl K) : Apart (fin (f x)) (cv f v) ↔ Apart (fin x) v := apart_cv f (fin x) v

theorem barrier_cv (cd : K) (r : Transect K) : RegularBarrier (f cd) (tcv f r) ↔ RegularBarrier cd r := by
  unfold RegularBarrier tcv
  simp only [cv_isnan, number_cv, apart_cv, ← map_neg, apart_cv_r]

theorem lagoon_cv (bs : K) (r : Transect K) : RegularLagoon (f bs) (tcv f r) ↔ RegularLagoon bs r := by
  unfold RegularLagoon tcv
  simp only [cv_isnan, apart_cv, apart_cv_l, ← apply_ite (cv f)]

theorem channel_cv (r : Transect K) : RegularChannel (tcv f r) ↔ RegularChannel r := by
  unfold RegularChannel tcv
  simp only [apart_cv]

/-- Regular arguments stay regular. -/
theorem regular_cv (pp : PhysPars K) (a : MorIn K) (h : Regular pp a) : Regular (ppcv f pp) (icv f a) := by
  obtain ⟨h1, h2, h3, h4, h5, h6, h7, h8, h9⟩ := h
  have num : ∀ l : List (Fl K), (∀ v ∈ l, IsNumber v) → ∀ v ∈ l.map (cv f), IsNumber v := by
    intro l hl v hv
    obtain ⟨u, hu, rfl⟩ := mem_map.mp hv
    exact (number_cv f u).mpr (hl u hu)
  have get : ∀ i : ℕ, ∀ r ∈ (a.rows.map (tcv f))[i]?, ∃ q ∈ a.rows[i]?, r = tcv f q := by
    intro i r hr
    rw [getElem?_map] at hr
    obtain ⟨q, hq, e⟩ := Option.map_eq_some_iff.mp hr
    exact ⟨q, hq, e.symm⟩
  refine ⟨fun e => h1 ((o_zero f _).mp e), fun e => h2 ((o_zero f _).mp e), num _ h3, num _ h4, num _ h5, num _ h6, ?_, ?_, ?_⟩
  · intro r hr
    obtain ⟨q, hq, rfl⟩ := mem_map.mp hr
    exact (barrier_cv f _ q).mpr (h7 q hq)
  · intro i hi r hr
    obtain ⟨q, hq, rfl⟩ := get i r hr
    exact (lagoon_cv f _ q).mpr (h8 i hi q hq)
  · intro hc
    obtain ⟨k1, k2, k3, k4, k5, k6⟩ := h9 hc
    refine ⟨?_, (number_cv f _).mpr k2, ?_, (apart_cv f _ (fin _)).mpr k4, fun e => k5 ((o_zero f _).mp e), fun e => k6 ((o_zero f _).mp e)⟩
    · intro i hi r hr
      obtain ⟨q, hq, rfl⟩ := get i r hr
      exact (channel_cv f q).mpr (k1 i hi q hq)
    · have := (apart_cv f a.EndWidth (fin 0)).mpr k3
      rwa [← cv_lit0] at this
end regular

end Verif.Model
