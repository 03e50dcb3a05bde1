import Verif.Lemmas.Moved
import Verif.Lemmas.MorDt

set_option autoImplicit false
set_option linter.unusedSectionVars false

/-! # Slower transport for a longer time

All rates of change of a morphological step are proportional to the transport rates, so dividing these by `c` divides the rates of change by `c`. -/

namespace Verif.Model
open Verif Fl List

variable {K : Type} [Field K] [LinearOrder K] [IsStrictOrderedRing K]

/-- A value times the number `q`. -/
def sc (q : K) : Fl K → Fl K
  | nan => nan
  | ninf => ninf
  | pinf => pinf
  | fin x => fin (q * x)

section fl
variable (q : K)

theorem sc_zero : sc q (fin 0) = fin 0 := congrArg fin (mul_zero q)
theorem sc_fin (x : K) : sc q (fin x) = fin (q * x) := rfl
theorem sc_isnan (a : Fl K) : (sc q a).isnan = a.isnan := by cases a <;> rfl
theorem sc_neg (a : Fl K) : sc q (-a) = -sc q a := by
  cases a <;> first | rfl | exact congrArg fin (mul_neg q _)
theorem sc_add (a b : Fl K) : sc q (a + b) = sc q a + sc q b := by
  cases a <;> cases b <;> first | rfl | exact congrArg fin (mul_add q _ _)
theorem sc_sub (a b : Fl K) : sc q (a - b) = sc q a - sc q b := by
  show sc q (a + -b) = sc q a + -sc q b
  rw [sc_add, sc_neg]
variable (hq : 0 < q)
include hq
theorem infOfSign_sc (x : K) : infOfSign (q * x) = infOfSign x := by
  unfold infOfSign
  simp only [mul_eq_zero, hq.ne', false_or, mul_pos_iff_of_pos_left hq]
theorem sc_infOfSign (x : K) : sc q (infOfSign x) = infOfSign x := by
  unfold infOfSign
  split_ifs <;> rfl
theorem sc_mul_left (a b : Fl K) : sc q (a * b) = sc q a * b := by
  cases a <;> cases b <;> first
    | rfl
    | exact congrArg fin (mul_assoc q _ _).symm
    | exact sc_infOfSign q hq _
    | (refine (sc_infOfSign q hq _).trans (infOfSign_sc q hq _).symm)
    | (refine (sc_infOfSign q hq _).trans ((infOfSign_sc q hq _).symm.trans ?_); rw [mul_neg]; rfl)
theorem fl_mul_comm (a b : Fl K) : a * b = b * a := by
  cases a <;> cases b <;> first | rfl | exact congrArg fin (mul_comm _ _)
theorem sc_mul_right (a b : Fl K) : sc q (a * b) = a * sc q b := by
  rw [fl_mul_comm q hq a b, sc_mul_left q hq, fl_mul_comm q hq]
theorem sc_div (a b : Fl K) : sc q (a / b) = sc q a / b := by
  cases a <;> cases b <;> first
    | rfl
    | exact sc_zero q
    | skip
  case ninf.fin y =>
    show sc q (if 0 ≤ y then ninf else pinf) = if 0 ≤ y then ninf else pinf
    split_ifs <;> rfl
  case pinf.fin y =>
    show sc q (if 0 ≤ y then pinf else ninf) = if 0 ≤ y then pinf else ninf
    split_ifs <;> rfl
  case fin.fin x y =>
    show sc q (if y = 0 then infOfSign x else fin (x / y)) = if y = 0 then infOfSign (q * x) else fin (q * x / y)
    split_ifs
    · rw [sc_infOfSign q hq, infOfSign_sc q hq]
    · rw [sc_fin, mul_div_assoc]
theorem sc_blt (a b : Fl K) : (sc q a <? sc q b) = (a <? b) := by
  cases a <;> cases b <;> first | rfl | exact decide_eq_decide.mpr (mul_lt_mul_iff_right₀ hq)
theorem sc_blt0 (b : Fl K) : (fin 0 <? sc q b) = (fin 0 <? b) := by
  rw [← sc_zero q, sc_blt q hq, sc_zero]
theorem sc_abs (a : Fl K) : sc q a.abs = (sc q a).abs := by
  cases a <;> first | rfl | (refine congrArg fin ?_; rw [abs_mul, abs_of_pos hq])
theorem sc_npmax (a b : Fl K) : sc q (npmax a b) = npmax (sc q a) (sc q b) := by
  unfold npmax; simp only [sc_isnan, sc_blt q hq, apply_ite (sc q)]
theorem sc_npmin (a b : Fl K) : sc q (npmin a b) = npmin (sc q a) (sc q b) := by
  unfold npmin; simp only [sc_isnan, sc_blt q hq, apply_ite (sc q)]
theorem sc_pymax (a b : Fl K) : sc q (pymax a b) = pymax (sc q a) (sc q b) := by
  unfold pymax; simp only [sc_blt q hq, apply_ite (sc q)]
theorem sc_pymin (a b : Fl K) : sc q (pymin a b) = pymin (sc q a) (sc q b) := by
  unfold pymin; simp only [sc_blt q hq, apply_ite (sc q)]
omit hq in
theorem sc_getD (l : List (Fl K)) (i : ℕ) : ((l.map (sc q))[i]?).getD nan = sc q ((l[i]?).getD nan) := by
  rw [getElem?_map]; cases l[i]? <;> rfl
/-- A rate `q = 1 / c` times as large, for `c` times as long. -/
theorem sc_time (a : Fl K) (c s : K) (hc : q * c = 1) : sc q a * fin (c * s) = a * fin s := by
  have hc0 : 0 < c := by
    have : 0 < q * c := by rw [hc]; exact one_pos
    exact (mul_pos_iff_of_pos_left hq).mp this
  cases a with
  | nan => rfl
  | ninf =>
    show infOfSign (-(c * s)) = infOfSign (-s)
    rw [← mul_neg, infOfSign_sc c hc0]
  | pinf => exact infOfSign_sc c hc0 s
  | fin x =>
    refine congrArg fin ?_
    calc q * x * (c * s) = (q * c) * (x * s) := by ring
      _ = x * s := by rw [hc, one_mul]
end fl

/-- The step with all transport `q` times as large. -/
def slow (q : K) (a : MorIn K) (dtMin dtMax dt : ℤ) : MorIn K :=
  { a with LST := a.LST.map (sc q), Bedload := a.Bedload.map (sc q), CST := a.CST.map (sc q), MorDt := dt, MorDtMin := dtMin, MorDtMax := dtMax }
/-- The parameters with the erosion rate at the ends `q` times as large. -/
def slowPars (q : K) (pp : PhysPars K) : PhysPars K := { pp with ShorelineErosionRate := q * pp.ShorelineErosionRate }

def scSec (q : K) (s : Sec K) : Sec K := { s with dvol := sc q s.dvol }
def scRates (q : K) (R : Rates K) : Rates K :=
  { y0 := R.y0.map (sc q), y1 := R.y1.map (sc q), y2 := R.y2.map (sc q), y3 := R.y3.map (sc q), y4 := R.y4.map (sc q), z0 := R.z0.map (sc q), z1 := R.z1.map (sc q)
    z3 := R.z3.map (sc q), riv := R.riv.map (sc q), endW := sc q R.endW, endZ := sc q R.endZ, endX := sc q R.endX }

section
variable (q : K) (hq : 0 < q) (pp : PhysPars K) (a : MorIn K) (d1 d2 d3 : ℤ)

theorem precalc_slow : precalc (slowPars q pp) (slow q a d1 d2 d3) = precalc pp a := rfl

theorem zipSub_sc (l m : List (Fl K)) : zipWith (· - ·) (l.map (sc q)) (m.map (sc q)) = (zipWith (· - ·) l m).map (sc q) := by
  rw [zipWith_map, map_zipWith]
  simp only [sc_sub]

theorem sections_slow : sections (slowPars q pp) (slow q a d1 d2 d3) = (sections pp a).map (List.map (scSec q)) := by
  unfold sections slow slowPars
  simp only []
  have e1 : zipWith (· - ·) (a.Bedload.map (sc q)) ((a.Bedload.map (sc q)).tail ++ [fin 0]) = (zipWith (· - ·) a.Bedload (a.Bedload.tail ++ [fin 0])).map (sc q) := by
    rw [← zipSub_sc, map_append, map_tail, map_cons, map_nil, sc_zero]
  have e2 : zipWith (· - ·) (a.Bedload.map (sc q)).dropLast (a.Bedload.map (sc q)).tail = (zipWith (· - ·) a.Bedload.dropLast a.Bedload.tail).map (sc q) := by
    rw [← zipSub_sc, map_tail, map_dropLast]
  rw [e1, e2, ← apply_ite (List.map (sc q))]
  simp only [length_map]
  split
  all_goals
    split
    · rfl
    · refine congrArg Except.ok ?_
      rw [zipWith_map_left, map_zipWith]
      rfl

include hq
theorem ero_sc (s : Sec K) : (scSec q s).ero = sc q s.ero := by
  show -(npmin (sc q s.dvol) (fin 0)) = sc q (-(npmin s.dvol (fin 0)))
  rw [sc_neg, sc_npmin q hq, sc_zero]
theorem bedDep_sc (s : Sec K) : (scSec q s).bedDep = sc q s.bedDep := by
  show npmax (sc q s.dvol) (fin 0) = sc q (npmax s.dvol (fin 0))
  rw [sc_npmax q hq, sc_zero]
theorem bedEro_sc (s : Sec K) : (scSec q s).bedEro = sc q s.bedEro := by
  unfold Sec.bedEro
  rw [ero_sc q hq, sc_mul_left q hq]; rfl
theorem bankEro_sc (s : Sec K) : (scSec q s).bankEro = sc q s.bankEro := by
  unfold Sec.bankEro
  rw [ero_sc q hq, sc_mul_left q hq]; rfl
omit hq

theorem scatter_sc : ∀ (l : List (Fl K)) (ixs : List ℕ) (vs : List (Fl K)),
    scatter (fun old v => old + v) (l.map (sc q)) ixs (vs.map (sc q)) = (scatter (fun old v => old + v) l ixs vs).map (List.map (sc q))
  | l, [], [] => rfl
  | l, [], v :: vs => rfl
  | l, i :: is, [] => rfl
  | l, i :: is, v :: vs => by
    rw [map_cons]
    unfold scatter
    refine bind_mv (ixGet_map (sc q) l i) (fun old => ?_)
    rw [← sc_add, ← map_set]
    exact scatter_sc _ is vs

theorem addCol_sc (l : List (Fl K)) (ixs : List ℕ) (ss : List (Sec K)) (rs : List (Transect K)) (f : Sec K → Transect K → Fl K) (hf : ∀ s r, f (scSec q s) r = sc q (f s r)) :
    addCol (l.map (sc q)) ixs (ss.map (scSec q)) rs f = (addCol l ixs ss rs f).map (List.map (sc q)) := by
  unfold addCol
  rw [length_map]
  split_ifs
  · rfl
  · rw [← scatter_sc, zipWith_map_left, map_zipWith]
    simp only [hf]

theorem single_sc (l : List (Sec K)) : (match l.map (scSec q) with | [e] => .ok e | _ => .error .value : Except PyErr (Sec K)) =
    Except.map (scSec q) (match l with | [e] => .ok e | _ => .error .value : Except PyErr (Sec K)) := by
  rcases l with _ | ⟨e, _ | ⟨e', l⟩⟩ <;> rfl

include hq
theorem riverRates_sc (cells : List (Cell K)) : riverRates (slowPars q pp) (slow q a d1 d2 d3) cells = (riverRates pp a cells).map (scRates q) := by
  unfold riverRates
  have hz : replicate a.rows.length (fin 0 : Fl K) = (replicate a.rows.length (fin 0 : Fl K)).map (sc q) := by rw [map_replicate, sc_zero]
  refine bind_mv (sections_slow q pp a d1 d2 d3) (fun ss => ?_)
  have hf : ∀ k : ℕ, (ss.map (scSec q)).filter (fun s => s.flag == k) = (ss.filter (fun s => s.flag == k)).map (scSec q) := fun k => filter_mv (fun _ => rfl) ss
  simp only [hf]
  refine bind_same rfl (fun onRows => ?_)
  have add := fun (ixs : List ℕ) (ss : List (Sec K)) (rs : List (Transect K)) f hf => (congrArg (fun z => addCol z ixs (ss.map (scSec q)) rs f) hz).trans (addCol_sc q _ ixs ss rs f hf)
  refine bind_mv (add _ _ _ _ (fun s r => by rw [bedDep_sc q hq, bedEro_sc q hq, ← sc_sub, ← sc_div q hq])) (fun z3 => ?_)
  refine bind_mv (add _ _ _ _ (fun s r => by rw [bankEro_sc q hq, ← sc_div q hq, ← sc_div q hq])) (fun y3 => ?_)
  refine bind_mv (add _ _ _ _ (fun s r => by rw [bankEro_sc q hq, ← sc_div q hq, ← sc_div q hq, ← sc_neg])) (fun y4 => ?_)
  have hr : ((ss.filter (fun s => s.flag == 0)).map (scSec q)).map (fun s => (s.bedDep - s.ero) / (fin pp.RiverWidth * fin a.Dx)) =
      ((ss.filter (fun s => s.flag == 0)).map (fun s => (s.bedDep - s.ero) / (fin pp.RiverWidth * fin a.Dx))).map (sc q) :=
    map_mv (fun s => by rw [bedDep_sc q hq, ero_sc q hq, ← sc_sub, ← sc_div q hq]) _
  show (if a.Closed = true then _ else _) = Except.map _ (if a.Closed = true then _ else _)
  split
  · show Except.ok _ = Except.ok _
    simp only [scRates, sc_zero]
    rw [← hz]
    exact congrArg Except.ok (by rw [← hr]; rfl)
  · refine bind_same rfl (fun outRows => ?_)
    refine bind_mv (add _ _ _ _ (fun s r => by rw [bedDep_sc q hq, bedEro_sc q hq, ← sc_sub, ← sc_div q hq])) (fun z1 => ?_)
    refine bind_mv (add _ _ _ _ (fun s r => by rw [bankEro_sc q hq, ← sc_div q hq, ← sc_div q hq])) (fun y1 => ?_)
    refine bind_mv (add _ _ _ _ (fun s r => by rw [bankEro_sc q hq, ← sc_div q hq, ← sc_div q hq, ← sc_neg])) (fun y2 => ?_)
    refine bind_mv (g := scSec q) ?_ (fun e => ?_)
    · exact single_sc q _
    refine bind_mv (pyGet_map _ _ _) (fun bl => ?_)
    have hy : cells.map (fun c => toShore (slowPars q pp) (slow q a d1 d2 d3) (sc q bl) c / (c.sfh * fin a.Dx)) =
        (cells.map (fun c => toShore pp a bl c / (c.sfh * fin a.Dx))).map (sc q) := by
      rw [map_map]
      refine map_congr_left (fun c _ => ?_)
      show (fin a.Dx * sc q bl / fin pp.OutletSedSpreadDist) * _ / _ = sc q ((fin a.Dx * bl / fin pp.OutletSedSpreadDist) * _ / _)
      rw [sc_div q hq, sc_mul_left q hq, sc_div q hq, sc_mul_right q hq]
      rfl
    have hx : ∀ b1 b2 : Bool, ∀ x : Fl K, sc q (if b1 then x else if b2 then -x else fin 0) = if b1 then sc q x else if b2 then -sc q x else fin 0 := by
      intro b1 b2 x
      cases b1 <;> cases b2 <;> simp [sc_neg, sc_zero]
    show Except.ok _ = Except.ok _
    simp only [scRates, hx, sc_mul_left q hq, sc_div q hq, sc_sub, ← hz]
    rw [← bedDep_sc q hq, ← bedEro_sc q hq, ← bankEro_sc q hq, ← hr, ← hy]
    rfl
omit hq

theorem zipIdx_sc (l : List (Fl K)) (cells : List (Cell K)) (g g' : ℕ → Fl K → Cell K → Fl K) (h : ∀ i v c, g' i (sc q v) c = sc q (g i v c)) :
    ((l.map (sc q)).zip cells).mapIdx (fun i (v, c) => g' i v c) = ((l.zip cells).mapIdx (fun i (v, c) => g i v c)).map (sc q) := by
  apply ext_getElem?
  intro j
  simp only [getElem?_mapIdx, zip, getElem?_zipWith, getElem?_map]
  cases l[j]? <;> cases cells[j]? <;> first | rfl | exact congrArg some (h _ _ _)

include hq
theorem lstInterior_sc (cells : List (Cell K)) (y0 : List (Fl K)) :
    lstInterior (slow q a d1 d2 d3) cells (y0.map (sc q)) = (lstInterior a cells y0).map (List.map (sc q)) := by
  unfold lstInterior
  simp only [show (slow q a d1 d2 d3).LST.length = a.LST.length from length_map _]
  split
  · rfl
  · refine congrArg Except.ok ?_
    refine zipIdx_sc q y0 cells (fun i v c => if 0 < i ∧ i + 1 < cells.length then v + ((a.LST[i-1]?).getD nan - (a.LST[i]?).getD nan) / (c.sfh * fin a.Dx) else v)
      (fun i v c => if 0 < i ∧ i + 1 < cells.length then v + (((a.LST.map (sc q))[i-1]?).getD nan - ((a.LST.map (sc q))[i]?).getD nan) / (c.sfh * fin a.Dx) else v) (fun i v c => ?_)
    simp only [sc_getD, apply_ite (sc q), sc_add, sc_sub, sc_div q hq]

theorem lstRates_sc (rb : ℕ) (cells : List (Cell K)) (R : Rates K)
    (hn : a.Closed = false → ∀ l, a.LST[prevIx a.LST.length rb]? = some l → (l <? fin 0) = false) :
    lstRates (slowPars q pp) (slow q a d1 d2 d3) rb cells (scRates q R) = (lstRates pp a rb cells R).map (fun r => (scRates q r.1, r.2)) := by
  unfold lstRates
  refine bind_mv (lstInterior_sc q hq a d1 d2 d3 cells R.y0) (fun y0 => ?_)
  simp only [show (slow q a d1 d2 d3).LST.length = a.LST.length from length_map _]
  show (if a.Closed = true then _ else _) = Except.map _ (if a.Closed = true then _ else _)
  split
  · rfl
  · next hcl =>
    have hn := hn (by simpa using hcl)
    cases hl : a.LST[prevIx a.LST.length rb]? with
    | none =>
      have e1 : ixGet a.LST (prevIx a.LST.length rb) = .error .index := by unfold ixGet; rw [hl]
      have e2 : ixGet (slow q a d1 d2 d3).LST (prevIx a.LST.length rb) = .error .index := by
        unfold ixGet
        rw [show (slow q a d1 d2 d3).LST = a.LST.map (sc q) from rfl, getElem?_map, hl]; rfl
      rw [e1, e2]; rfl
    | some l =>
      have hn := hn l hl
      have e1 : ixGet a.LST (prevIx a.LST.length rb) = .ok l := by unfold ixGet; rw [hl]
      have e2 : ixGet (slow q a d1 d2 d3).LST (prevIx a.LST.length rb) = .ok (sc q l) := by
        unfold ixGet
        rw [show (slow q a d1 d2 d3).LST = a.LST.map (sc q) from rfl, getElem?_map, hl]; rfl
      rw [e1, e2]
      show (if (fin 0 <? sc q l) = true then _ else _) = Except.map _ (if (fin 0 <? l) = true then _ else _)
      simp only [sc_blt0 q hq]
      split
      · refine bind_same rfl (fun c => ?_)
        have hm : (y0.map (sc q)).modify rb (fun x => x - sc q l / (c.sfh * fin a.Dx)) = (y0.modify rb (fun x => x - l / (c.sfh * fin a.Dx))).map (sc q) :=
          modify_mv (fun x => by simp only [sc_sub, sc_div q hq]) _ _
        show Except.ok _ = Except.ok _
        simp only [scRates, ← hm, sc_sub, sc_add, sc_div q hq]
        rfl
      · next hp =>
        refine bind_same rfl (fun c => ?_)
        have hl0 : sc q l = l := by
          cases l with
          | fin x =>
            simp only [blt_fin, decide_eq_false_iff_not, not_lt] at hn
            simp only [blt_fin, decide_eq_true_eq, not_lt] at hp
            have : x = 0 := le_antisymm hp hn
            rw [this, sc_zero]
          | _ => rfl
        show Except.ok _ = Except.ok _
        simp only [scRates, sc_sub, sc_div q hq, sc_neg, hl0]
        rfl

theorem cstRates_sc (cells : List (Cell K)) (R : Rates K) :
    cstRates (slowPars q pp) (slow q a d1 d2 d3) cells (scRates q R) = (cstRates pp a cells R).map (scRates q) := by
  unfold cstRates
  simp only [show (slow q a d1 d2 d3).CST.length = a.CST.length from length_map _, show (slow q a d1 d2 d3).OverwashProp.length = a.OverwashProp.length from rfl]
  split
  · rfl
  · refine congrArg Except.ok ?_
    have h0 := zipIdx_sc q R.y0 cells (fun i v c => if 0 < i ∧ i + 1 < cells.length then v - (a.CST[i]?).getD nan / c.sfh else -(fin pp.ShorelineErosionRate) / fin 31557600)
      (fun i v c => if 0 < i ∧ i + 1 < cells.length then v - ((a.CST.map (sc q))[i]?).getD nan / c.sfh else -(fin (q * pp.ShorelineErosionRate)) / fin 31557600)
      (fun i v c => by simp only [sc_getD, apply_ite (sc q), sc_sub, sc_div q hq, sc_neg, sc_fin])
    have h1 := zipIdx_sc q R.y1 cells (fun i v c => if c.op then v - (a.OverwashProp[i]?).getD nan * (a.CST[i]?).getD nan / c.bh else v)
      (fun i v c => if c.op then v - (a.OverwashProp[i]?).getD nan * ((a.CST.map (sc q))[i]?).getD nan / c.bh else v)
      (fun i v c => by simp only [sc_getD, apply_ite (sc q), sc_sub, sc_div q hq, sc_mul_right q hq])
    have h3 := zipIdx_sc q R.y3 cells (fun i v c => if c.op then v else v - (a.OverwashProp[i]?).getD nan * (a.CST[i]?).getD nan / c.bh)
      (fun i v c => if c.op then v else v - (a.OverwashProp[i]?).getD nan * ((a.CST.map (sc q))[i]?).getD nan / c.bh)
      (fun i v c => by simp only [sc_getD, apply_ite (sc q), sc_sub, sc_div q hq, sc_mul_right q hq])
    have hz := zipIdx_sc q R.z0 cells (fun i v c => v + (fin 1 - (a.OverwashProp[i]?).getD nan) * (a.CST[i]?).getD nan / c.cw)
      (fun i v c => v + (fin 1 - (a.OverwashProp[i]?).getD nan) * ((a.CST.map (sc q))[i]?).getD nan / c.cw)
      (fun i v c => by simp only [sc_getD, sc_add, sc_div q hq, sc_mul_right q hq])
    unfold scRates
    simp only
    rw [Rates.mk.injEq]
    exact ⟨h0, h1, rfl, h3, rfl, hz, rfl, rfl, rfl, rfl, rfl, rfl⟩

theorem allRates_sc (rb : ℕ) (cells : List (Cell K)) (hn : a.Closed = false → ∀ l, a.LST[prevIx a.LST.length rb]? = some l → (l <? fin 0) = false) :
    allRates (slowPars q pp) (slow q a d1 d2 d3) rb cells = (allRates pp a rb cells).map (fun r => (scRates q r.1, r.2)) := by
  unfold allRates
  refine bind_mv (riverRates_sc q hq pp a d1 d2 d3 cells) (fun R => ?_)
  refine bind_mv (lstRates_sc q hq pp a d1 d2 d3 rb cells R hn) (fun r => ?_)
  exact bind_mv (cstRates_sc q hq pp a d1 d2 d3 r.2 r.1) (fun R => rfl)

theorem foldl_npmax_sc : ∀ (l : List (Fl K)) (x : Fl K), (l.map (sc q)).foldl npmax (sc q x) = sc q (l.foldl npmax x)
  | [], _ => rfl
  | y :: l, x => by
    rw [map_cons, foldl_cons, foldl_cons, ← sc_npmax q hq]
    exact foldl_npmax_sc l _

theorem maxAbs_sc (l : List (Fl K)) : maxAbs (l.map (sc q)) = (maxAbs l).map (sc q) := by
  unfold maxAbs
  rw [map_mv (f' := sc q) (g' := Fl.abs) (fun a => (sc_abs q hq a).symm)]
  rcases l.map Fl.abs with _ | ⟨x, t⟩
  · rfl
  · exact congrArg Except.ok (foldl_npmax_sc q hq t x)

theorem maxRate_sc (R : Rates K) : maxRate (scRates q R) = (maxRate R).map (sc q) := by
  unfold maxRate
  refine bind_mv (maxAbs_sc q hq R.riv) (fun m1 => ?_)
  refine bind_mv (g := sc q) ?_ (fun m2 => ?_)
  · rw [← maxAbs_sc q hq]; simp only [map_append]; rfl
  refine bind_mv (g := sc q) ?_ (fun m3 => ?_)
  · rw [← maxAbs_sc q hq]
    simp only [map_append, map_map]
    rw [show (scRates q R).z0.map (fun _ => (fin 0 : Fl K)) = R.z0.map (sc q ∘ fun _ => (fin 0 : Fl K)) from by
      show (R.z0.map (sc q)).map _ = _
      rw [map_map]; exact map_congr_left (fun a _ => (sc_zero q).symm)]
    rfl
  show Except.ok _ = Except.ok _
  simp only [scRates, sc_pymax q hq, sc_abs q hq]

theorem clip_sc (L : K) (r : Fl K) : clip (q * L) (sc q r) = sc q (clip L r) := by
  unfold clip
  rw [sc_npmin q hq, sc_npmax q hq, sc_fin, sc_fin, mul_neg]
theorem pyClip_sc (L : K) (r : Fl K) : pyClip (q * L) (sc q r) = sc q (pyClip L r) := by
  unfold pyClip
  rw [sc_pymin q hq, sc_pymax q hq, sc_fin, sc_fin, mul_neg]

omit hq
/-- Halving with conditions that agree at corresponding steps. -/
theorem halve_pow2 (cond cond' : ℤ → Bool) (m c : ℕ) (h0 : cond (sec m) = false) :
    ∀ (k f : ℕ), k < f → (∀ i ≤ k, cond' (sec (c * m * 2 ^ i)) = cond (sec (m * 2 ^ i))) →
      ∃ i ≤ k, halve cond f (sec (m * 2 ^ k)) = .ok (sec (m * 2 ^ i)) ∧ halve cond' f (sec (c * m * 2 ^ k)) = .ok (sec (c * m * 2 ^ i)) := by
  intro k
  induction k with
  | zero =>
    intro f hf hc
    obtain ⟨g, rfl⟩ : ∃ g, f = g + 1 := ⟨f - 1, by omega⟩
    have e := hc 0 (le_refl _)
    simp only [pow_zero, mul_one] at e
    refine ⟨0, le_refl _, ?_, ?_⟩
    · simp only [halve, pow_zero, mul_one, h0, Bool.false_eq_true, if_false]
    · simp only [halve, pow_zero, mul_one, e, h0, Bool.false_eq_true, if_false]
  | succ k ih =>
    intro f hf hc
    obtain ⟨g, rfl⟩ : ∃ g, f = g + 1 := ⟨f - 1, by omega⟩
    have e1 : m * 2 ^ (k + 1) = 2 * (m * 2 ^ k) := by rw [pow_succ]; ring
    have e2 : c * m * 2 ^ (k + 1) = 2 * (c * m * 2 ^ k) := by rw [pow_succ]; ring
    have hk := hc (k + 1) (le_refl _)
    cases hb : cond (sec (m * 2 ^ (k + 1))) with
    | false =>
      rw [hb] at hk
      refine ⟨k + 1, le_refl _, ?_, ?_⟩
      · rw [halve, hb]; rfl
      · rw [halve, hk]; rfl
    | true =>
      rw [hb] at hk
      obtain ⟨i, hi, h1, h2⟩ := ih g (by omega) (fun i hi => hc i (by omega))
      refine ⟨i, by omega, ?_, ?_⟩
      · rw [halve, hb, if_pos rfl, e1, tdiv_sec, h1]
      · rw [halve, hk, if_pos rfl, e2, tdiv_sec, h2]

theorem small_sec (n : ℕ) (h : 2 * n < 172800) : ¬ (2 : ℤ) ^ 63 ≤ |2 * sec n| := by
  rw [two_sec]
  unfold sec
  rw [abs_of_nonneg (by positivity)]
  have : ((2 * n : ℕ) : ℤ) < 172800 := by exact_mod_cast h
  have : (2 : ℤ) ^ 63 = 9223372036854775808 := by norm_num
  omega

/-- Doubling with conditions that agree at corresponding steps. -/
theorem grow_pow2 (cond cond' : ℤ → Bool) (m c j : ℕ) (hc1 : 0 < c) (hj : c * m * 2 ^ j < 86400) (h0 : cond (sec (m * 2 ^ j)) = false)
    (hc : ∀ i ≤ j, cond' (sec (c * m * 2 ^ i)) = cond (sec (m * 2 ^ i))) :
    ∀ (d k f : ℕ), k + d = j → d < f → ∃ i ≤ j, grow cond f (sec (m * 2 ^ k)) = .ok (sec (m * 2 ^ i)) ∧ grow cond' f (sec (c * m * 2 ^ k)) = .ok (sec (c * m * 2 ^ i)) := by
  intro d
  induction d with
  | zero =>
    intro k f hk hf
    obtain ⟨g, rfl⟩ : ∃ g, f = g + 1 := ⟨f - 1, by omega⟩
    have : k = j := by omega
    subst this
    have e := hc k (le_refl _)
    rw [h0] at e
    refine ⟨k, le_refl _, ?_, ?_⟩
    · rw [grow, h0]; rfl
    · rw [grow, e]; rfl
  | succ d ih =>
    intro k f hk hf
    obtain ⟨g, rfl⟩ : ∃ g, f = g + 1 := ⟨f - 1, by omega⟩
    have e := hc k (by omega)
    cases hb : cond (sec (m * 2 ^ k)) with
    | false =>
      rw [hb] at e
      refine ⟨k, by omega, ?_, ?_⟩
      · rw [grow, hb]; rfl
      · rw [grow, e]; rfl
    | true =>
      rw [hb] at e
      obtain ⟨i, h1, h2, h3⟩ := ih (k + 1) g (by omega) (by omega)
      have e1 : 2 * (m * 2 ^ k) = m * 2 ^ (k + 1) := by rw [pow_succ]; ring
      have e2 : 2 * (c * m * 2 ^ k) = c * m * 2 ^ (k + 1) := by rw [pow_succ]; ring
      have l2 : c * m * 2 ^ (k + 1) ≤ c * m * 2 ^ j := Nat.mul_le_mul_left _ (Nat.pow_le_pow_right (by norm_num) (by omega))
      have l1 : m * 2 ^ k ≤ c * m * 2 ^ k := by
        rw [mul_assoc]; exact Nat.le_mul_of_pos_left _ hc1
      refine ⟨i, h1, ?_, ?_⟩
      · rw [grow, hb, if_pos rfl, if_neg (small_sec _ (by omega)), two_sec, e1, h2]
      · rw [grow, e, if_pos rfl, if_neg (small_sec _ (by omega)), two_sec, e2, h3]

include hq
/-- The adaptation of the timestep for slower rates and longer steps. -/
theorem adapt_sc (rate : Fl K) (lim : K) (m j k c : ℕ) (hm : 0 < m) (hc : 0 < c) (hqc : q * (c : K) = 1) (hkj : k ≤ j) (hj : c * m * 2 ^ j < 86400) :
    ∃ i ≤ j, adaptDt rate lim (sec m) (sec (m * 2 ^ j)) (sec (m * 2 ^ k)) = .ok (sec (m * 2 ^ i)) ∧
      adaptDt (sc q rate) lim (sec (c * m)) (sec (c * m * 2 ^ j)) (sec (c * m * 2 ^ k)) = .ok (sec (c * m * 2 ^ i)) := by
  have hj17 : j < 17 := by
    by_contra h
    have h1 : 2 ^ 17 ≤ 2 ^ j := Nat.pow_le_pow_right (by norm_num) (by omega)
    have h2 : 2 ^ j ≤ c * m * 2 ^ j := Nat.le_mul_of_pos_left _ (Nat.mul_pos hc hm)
    have h3 : (2:ℕ) ^ 17 = 131072 := by norm_num
    omega
  have hs' : ∀ i ≤ j, secs (sec (c * m * 2 ^ i)) = ((c * m * 2 ^ i : ℕ) : ℤ) := fun i hi =>
    secs_sec (lt_of_le_of_lt (Nat.mul_le_mul_left _ (Nat.pow_le_pow_right (by norm_num) hi)) hj)
  have hs : ∀ i ≤ j, secs (sec (m * 2 ^ i)) = ((m * 2 ^ i : ℕ) : ℤ) := fun i hi => by
    refine secs_sec ?_
    have l1 : m * 2 ^ i ≤ c * m * 2 ^ i := by rw [mul_assoc]; exact Nat.le_mul_of_pos_left _ hc
    have l2 : c * m * 2 ^ i ≤ c * m * 2 ^ j := Nat.mul_le_mul_left _ (Nat.pow_le_pow_right (by norm_num) hi)
    omega
  have hsm : secs (sec m) = (m : ℤ) := by have := hs 0 (by omega); simpa using this
  have hsm' : secs (sec (c * m)) = ((c * m : ℕ) : ℤ) := by have := hs' 0 (by omega); simpa using this
  have hr : ∀ i ≤ j, sc q rate * fin (secs (sec (c * m * 2 ^ i)) : K) = rate * fin (secs (sec (m * 2 ^ i)) : K) := by
    intro i hi
    rw [hs' i hi, hs i hi, ← sc_time q hq rate c _ hqc]
    push_cast
    rw [mul_assoc (c : K)]
  have hlt : ∀ x y : ℕ, (((c * x : ℕ) : ℤ) < ((c * y : ℕ) : ℤ)) ↔ ((x : ℤ) < (y : ℤ)) := by
    intro x y
    rw [Int.ofNat_lt, Int.ofNat_lt]
    exact Nat.mul_lt_mul_left hc
  unfold adaptDt
  set c1 : ℤ → Bool := fun dt => decide (secs (sec m) < secs dt) && (fin lim <? rate * fin (secs dt : K)) with hc1
  set c2 : ℤ → Bool := fun dt => decide (secs dt < secs (sec (m * 2 ^ j))) && (rate * fin (secs dt : K) <? fin (lim / 2)) with hc2
  set d1 : ℤ → Bool := fun dt => decide (secs (sec (c * m)) < secs dt) && (fin lim <? sc q rate * fin (secs dt : K)) with hd1
  set d2 : ℤ → Bool := fun dt => decide (secs dt < secs (sec (c * m * 2 ^ j))) && (sc q rate * fin (secs dt : K) <? fin (lim / 2)) with hd2
  have a1 : ∀ i ≤ j, d1 (sec (c * m * 2 ^ i)) = c1 (sec (m * 2 ^ i)) := by
    intro i hi
    simp only [hd1, hc1, hr i hi, hsm, hsm']
    refine congrArg (fun b => b && _) ?_
    rw [hs' i hi, hs i hi]
    refine decide_eq_decide.mpr ?_
    rw [mul_assoc c]; exact hlt _ _
  have a2 : ∀ i ≤ j, d2 (sec (c * m * 2 ^ i)) = c2 (sec (m * 2 ^ i)) := by
    intro i hi
    simp only [hd2, hc2, hr i hi]
    refine congrArg (fun b => b && _) ?_
    rw [hs' i hi, hs i hi, hs' j (le_refl _), hs j (le_refl _)]
    refine decide_eq_decide.mpr ?_
    rw [mul_assoc c, mul_assoc c]; exact hlt _ _
  obtain ⟨x, hx, h1, h2⟩ := halve_pow2 c1 d1 m c (by simp [hc1]) k 65 (by omega) (fun i hi => a1 i (by omega))
  obtain ⟨i, hi, h3, h4⟩ := grow_pow2 c2 d2 m c j hc hj (by simp [hc2]) a2 (j - x) x 65 (by omega) (by omega)
  exact ⟨i, hi, bind_ok.mpr ⟨_, h1, h3⟩, bind_ok.mpr ⟨_, h2, h4⟩⟩

theorem limitRates_sc (rate : Fl K) (lim : K) (m n c : ℕ) (hc : 0 < c) (hqc : q * (c : K) = 1) (hm : c * m < 86400) (hn : c * n < 86400) (R : Rates K) :
    limitRates (sc q rate) lim (sec (c * m)) (sec (c * n)) (scRates q R) = (limitRates rate lim (sec m) (sec n) R).map (scRates q) := by
  have l1 : m ≤ c * m := Nat.le_mul_of_pos_left _ hc
  have l2 : n ≤ c * n := Nat.le_mul_of_pos_left _ hc
  have hr : sc q rate * fin (((c * n : ℕ) : ℤ) : K) = rate * fin (((n : ℕ) : ℤ) : K) := by
    rw [← sc_time q hq rate c _ hqc]; push_cast; rfl
  unfold limitRates
  simp only [secs_sec hm, secs_sec hn, secs_sec (show m < 86400 by omega), secs_sec (show n < 86400 by omega), hr]
  split
  · have e1 : decide (((c * n : ℕ) : ℤ) ≤ ((c * m : ℕ) : ℤ)) = decide ((n : ℤ) ≤ (m : ℤ)) := by
      refine decide_eq_decide.mpr ?_
      rw [Int.ofNat_le, Int.ofNat_le]
      exact Nat.mul_le_mul_left_iff hc
    rw [e1]
    refine bind_same rfl (fun _ => ?_)
    have e2 : (((c * n : ℕ) : ℤ) = 0) ↔ ((n : ℤ) = 0) := by
      have : c ≠ 0 := by omega
      rw [Int.natCast_eq_zero, Int.natCast_eq_zero, Nat.mul_eq_zero]
      simp [this]
    simp only [e2]
    split
    · rfl
    · have hL : lim / (((c * n : ℕ) : ℤ) : K) = q * (lim / ((n : ℤ) : K)) := by
        have hcK : (c : K) ≠ 0 := by exact_mod_cast hc.ne'
        have hq' : q = 1 / (c : K) := by field_simp; exact hqc
        rw [hq']; push_cast
        rw [div_mul_div_comm, one_mul]
      have hm : ∀ (L : K) (l : List (Fl K)), (l.map (sc q)).map (clip (q * L)) = (l.map (clip L)).map (sc q) := fun L l => map_mv (fun r => clip_sc q hq _ r) l
      show Except.ok _ = Except.ok _
      simp only [scRates, hL, hm, clip_sc q hq, pyClip_sc q hq]
  · rfl

theorem applyRates_sc (n c : ℕ) (hc : 0 < c) (hqc : q * (c : K) = 1) (hn : c * n < 86400) (R : Rates K) (cells : List (Cell K)) :
    applyRates (slow q a d1 d2 d3) (sec (c * n)) (scRates q R) cells = applyRates a (sec n) R cells := by
  have l2 : n ≤ c * n := Nat.le_mul_of_pos_left _ hc
  have hr : ∀ r : Fl K, sc q r * fin (((c * n : ℕ) : ℤ) : K) = r * fin (((n : ℕ) : ℤ) : K) := by
    intro r
    rw [← sc_time q hq r c _ hqc]; push_cast; rfl
  unfold applyRates
  simp only [secs_sec hn, secs_sec (show n < 86400 by omega), show (scRates q R).riv.length = R.riv.length from length_map _]
  show (if R.riv.length + 1 ≠ a.RiverElev.length then _ else _) = _
  split
  · rfl
  · have hm : moveCell (scRates q R) (fin (((c * n : ℕ) : ℤ) : K)) = moveCell R (fin (((n : ℕ) : ℤ) : K)) := by
      funext i x
      simp only [moveCell, scRates, sc_getD, hr]
    have hz : zipWith (fun z r => z + r * fin (((c * n : ℕ) : ℤ) : K)) a.RiverElev.tail (R.riv.map (sc q)) = zipWith (fun z r => z + r * fin (((n : ℕ) : ℤ) : K)) a.RiverElev.tail R.riv := by
      rw [zipWith_map_right]
      simp only [hr]
    refine congrArg Except.ok ?_
    rw [hm]
    simp only [slow, scRates, hz, hr]

omit hq
theorem walk_slow (d : ℤ) : ∀ (f : ℕ) (x : ℤ) (cells : List (Cell K)), walk (slowPars q pp) d f x cells = walk pp d f x cells
  | 0, _, _ => rfl
  | f + 1, x, cells => by
    unfold walk
    simp only [walk_slow d f]
    rfl

theorem breachStage_slow (j1 j2 : ℕ → Bool) (C : Bool) (i : ℕ) (st : MorSt K) : breachStage (slowPars q pp) j1 j2 C i st = breachStage pp j1 j2 C i st := by
  have hc : ∀ st, connected (slowPars q pp) C i st = connected pp C i st := by
    intro st
    unfold connected
    simp only [walk_slow]
    rfl
  unfold breachStage
  simp only [hc]
  rfl
include hq

/-- **A step with all transport divided by `c` and `c` times the time.** -/
theorem update_slow (j1 j2 : ℕ → Bool) (m j k c : ℕ) (hm : 0 < m) (hc : 0 < c) (hqc : q * (c : K) = 1) (hkj : k ≤ j) (hj : c * m * 2 ^ j < 86400)
    (hmin : a.MorDtMin = sec m) (hmax : a.MorDtMax = sec (m * 2 ^ j)) (hdt : a.MorDt = sec (m * 2 ^ k))
    (hn : a.Closed = false → ∀ rb, firstIx (fun r : Transect K => a.EndX1 <? fin r.x) a.rows = .ok rb → ∀ l, a.LST[prevIx a.LST.length rb]? = some l → (l <? fin 0) = false) :
    updateMorphology (slowPars q pp) j1 j2 (slow q a (sec (c * m)) (sec (c * m * 2 ^ j)) (sec (c * m * 2 ^ k))) =
      (updateMorphology pp j1 j2 a).map (fun o => { o with MorDt := (c : ℤ) * o.MorDt }) := by
  have hf : forceStage (slowPars q pp) (slow q a (sec (c * m)) (sec (c * m * 2 ^ j)) (sec (c * m * 2 ^ k))) = (forceStage pp a).map (fun r => ((c : ℤ) * r.1, r.2.1, r.2.2)) := by
    unfold forceStage
    rw [precalc_slow]
    cases hp : precalc pp a with
    | error e => rfl
    | ok r =>
      obtain ⟨cells, X0Ix, rb⟩ := r
      have hn' : a.Closed = false → ∀ l, a.LST[prevIx a.LST.length rb]? = some l → (l <? fin 0) = false := by
        intro hcl
        refine hn hcl rb ?_
        unfold precalc at hp
        simp only [bind_ok, hcl, Bool.false_eq_true, if_false] at hp
        obtain ⟨x, hx, rb', hrb, hp⟩ := hp
        split at hp
        · cases hp
        · split at hp
          · cases hp
          · simp only [bind_ok] at hp
            obtain ⟨_, _, _, _, hp⟩ := hp
            have e := (Prod.ext_iff.mp (Prod.ext_iff.mp (ok_inj.mp hp)).2).2
            simp only at e
            rw [hrb, e]
      show (allRates (slowPars q pp) (slow q a (sec (c * m)) (sec (c * m * 2 ^ j)) (sec (c * m * 2 ^ k))) rb cells >>= _) = Except.map _ (allRates pp a rb cells >>= _)
      refine bind_mv (allRates_sc q hq pp a _ _ _ rb cells hn') (fun R => ?_)
      refine bind_mv (maxRate_sc q hq R.1) (fun rate => ?_)
      obtain ⟨i, hi, h1, h2⟩ := adapt_sc q hq rate a.MaxMorChange m j k c hm hc hqc hkj hj
      have hle : c * m * 2 ^ i ≤ c * m * 2 ^ j := Nat.mul_le_mul_left _ (Nat.pow_le_pow_right (by norm_num) hi)
      have hcm : c * m ≤ c * m * 2 ^ j := Nat.le_mul_of_pos_right _ (by positivity)
      rw [hmin, hmax, hdt, h1]
      show (adaptDt (sc q rate) a.MaxMorChange (sec (c * m)) (sec (c * m * 2 ^ j)) (sec (c * m * 2 ^ k)) >>= _) = _
      rw [h2]
      have hlim := limitRates_sc q hq rate a.MaxMorChange m (m * 2 ^ i) c hc hqc (by omega) (by rw [← mul_assoc]; omega) R.1
      rw [← mul_assoc] at hlim
      show (limitRates (sc q rate) a.MaxMorChange (sec (c * m)) (sec (c * m * 2 ^ i)) (scRates q R.1) >>= _) = Except.map _ (limitRates rate a.MaxMorChange (sec m) (sec (m * 2 ^ i)) R.1 >>= _)
      refine bind_mv hlim (fun R' => ?_)
      have happ := applyRates_sc q hq a (sec (c * m)) (sec (c * m * 2 ^ j)) (sec (c * m * 2 ^ k)) (m * 2 ^ i) c hc hqc (by rw [← mul_assoc]; omega) R' R.2
      rw [← mul_assoc] at happ
      refine bind_same happ (fun st => ?_)
      show Except.ok _ = Except.ok _
      refine congrArg Except.ok ?_
      unfold sec
      push_cast
      simp only [Prod.mk.injEq, and_true]
      ring
  unfold updateMorphology
  refine bind_mv hf (fun r => ?_)
  show (repairStage pp a.Closed a.Dx r.2.2 >>= _) = Except.map _ (repairStage pp a.Closed a.Dx r.2.2 >>= _)
  refine bind_same rfl (fun st => ?_)
  refine bind_same (breachStage_slow q pp j1 j2 a.Closed r.2.1 st) (fun st => ?_)
  refine bind_same rfl (fun st => ?_)
  rfl
end
end Verif.Model
