import Verif.Lemmas.Moved
import Verif.Lemmas.Core

set_option autoImplicit false
set_option linter.unusedSectionVars false

/-! # Whole runs on a coast with another origin of the Y axis -/

namespace Verif.Model
open Verif Fl Spec List

variable {K : Type} [Field K] [LinearOrder K] [IsStrictOrderedRing K]

section chan
/-- The course of the channel only depends on these quantities of a transect. -/
structure SameGeo (f : Transect K → Transect K) : Prop where
  x : ∀ t, (f t).x = t.x
  ow : ∀ t, outWidth (f t) = outWidth t
  lw : ∀ t, lagWidth (f t) = lagWidth t

/-- The channel only sees these quantities of a transect. -/
structure SameChan (f : Transect K → Transect K) : Prop extends SameGeo f where
  z1 : ∀ t, (f t).z1 = t.z1
  z3 : ∀ t, (f t).z3 = t.z3

def amv (f : Transect K → Transect K) (a : ChanIn K) : ChanIn K := { a with rows := a.rows.map f }

section geo
variable {f : Transect K → Transect K} (hf : SameGeo f)
include hf

theorem outletIx_sc (rows : List (Transect K)) (e0 e1 : Fl K) : outletIx (rows.map f) e0 e1 = outletIx rows e0 e1 := by
  unfold outletIx
  simp only [whereIx_map, hf.x]

theorem lagAreaOf_sc (Dx : K) (l : List (Transect K)) : lagAreaOf Dx (l.map f) = lagAreaOf Dx l := by
  unfold lagAreaOf
  rw [map_same (f := f) (g' := fun r => lagWidth r * fin Dx) (fun t => by rw [hf.lw])]

theorem lagLenOf_sc (Dx : K) (l : List (Transect K)) : lagLenOf Dx (l.map f) = lagLenOf Dx l := by
  unfold lagLenOf
  rw [map_same (f := f) (g' := fun r => if fin 0 <? lagWidth r then fin Dx else fin 0) (fun t => by rw [hf.lw])]

theorem outletStage_sc (pp : PhysPars K) (a : ChanIn K) : outletStage pp (amv f a) = outletStage pp a := by
  unfold outletStage
  show (if a.Closed = true then _ else _) = _
  split
  · rfl
  · simp only [show outletIx (amv f a).rows (amv f a).EndX0 (amv f a).EndX1 = outletIx a.rows a.EndX0 a.EndX1 from outletIx_sc hf _ _ _]
    refine bind_cong (gather_mv _ _ _) (fun l => ?_)
    rw [map_same (f := f) (g := outWidth) (g' := outWidth) hf.ow]
    rfl

theorem lagoonStage_sc (a : ChanIn K) (X0 : ℕ) (C : Bool) : lagoonStage (amv f a) X0 C = lagoonStage a X0 C := by
  have hw : (fun t => fin 0 <? lagWidth (f t)) = (fun t : Transect K => fin 0 <? lagWidth t) := funext (fun t => by rw [hf.lw])
  unfold lagoonStage amv
  simp only [filter_map, ← map_drop, ← map_take, lagAreaOf_sc hf, lagLenOf_sc hf, lastIx_map, firstIx_map, Function.comp_def, hf.x, hw]

theorem cutStage_sc (pp : PhysPars K) (a : ChanIn K) (s : LagStage K) (C : Bool) : cutStage pp (amv f a) s C = cutStage pp a s C := by
  have hw : (fun t => lagWidth (f t) <? fin pp.MinOutletWidth) = (fun t : Transect K => lagWidth t <? fin pp.MinOutletWidth) := funext (fun t => by rw [hf.lw])
  unfold cutStage
  refine bind_cong' rfl (fun _ => ?_)
  refine bind_cong (gather_mv _ _ _) (fun l => ?_)
  simp only [whereIx_map, ← map_drop, lagAreaOf_sc hf, lagLenOf_sc hf, hw]
  refine bind_cong' rfl (fun i => bind_cong' rfl (fun j => bind_cong' rfl (fun _ => ?_)))
  refine bind_cong (gather_mv _ _ _) (fun l => ?_)
  rw [all_mv (f := f) (g' := fun r => fin 0 <? lagWidth r) (fun t => by rw [hf.lw])]
  rfl

end geo

theorem assemble_sc [FloorRing K] {f : Transect K → Transect K} (hf : SameChan f) (pp : PhysPars K) (a : ChanIn K) : assembleChannel pp (amv f a) = assembleChannel pp a := by
  unfold assembleChannel
  refine bind_cong' ?_ (fun X0 => ?_)
  · show firstIx _ (a.rows.map f) = _
    simp only [firstIx_map, hf.x]
  refine bind_cong' (outletStage_sc hf.toSameGeo pp a) (fun ⟨outlet, w, C⟩ => ?_)
  refine bind_cong (ixGet_map _ _ _) (fun r0 => ?_)
  simp only [hf.lw]
  refine bind_cong' rfl (fun _ => ?_)
  refine bind_cong' (congrArg pyAssert (all_mv (fun t => by rw [hf.lw]) _)) (fun _ => ?_)
  refine bind_cong' (lagoonStage_sc hf.toSameGeo a _ _) (fun s => ?_)
  refine bind_cong' (cutStage_sc hf.toSameGeo pp a s C) (fun ⟨s, C⟩ => ?_)
  refine bind_cong (gather_mv _ _ _) (fun on => ?_)
  refine bind_cong (g := map f) ?_ (fun ow => ?_)
  · show (if C = true then _ else gather (a.rows.map f) outlet) = _
    split
    · rfl
    · exact gather_mv _ _ _
  have hg : chanGeom pp (amv f a) s C outlet w (on.map f) (ow.map f) = chanGeom pp a s C outlet w on ow := by
    unfold chanGeom amv
    simp only [map_same (f := f) (g := fun r => r.z3) (g' := fun r => r.z3) hf.z3, map_same (f := f) (g := fun r => r.z1) (g' := fun r => r.z1) hf.z1,
      map_same (f := f) (g := lagWidth) (g' := lagWidth) hf.lw]
  rw [hg]
  refine bind_cong' ?_ (fun dv => rfl)
  unfold chanHyd amv
  simp only [zipWith_map_right, hf.z3]

end chan

section runs
variable (d : K)

theorem sameChan_move : SameChan (moveT d : Transect K → Transect K) where
  x := fun _ => rfl
  z1 := fun _ => rfl
  z3 := fun _ => rfl
  ow := fun t => by simp only [outWidth, moveT, sh_sub_sh]
  lw := fun t => by simp only [lagWidth, moveT, sh_sub_sh]

variable [FloorRing K] (e : Env K) (he : NoOrigin e.parts)

include he in
theorem compute_mv (s : CoreSt K) : compute e (moveSt d s) = (compute e s).map (movePass d) := by
  unfold compute
  refine bind_same (assemble_sc (sameChan_move d) e.pp (chanIn e s)) (fun c => ?_)
  refine bind_same rfl (fun win => ?_)
  refine bind_same rfl (fun flow => ?_)
  refine bind_same rfl (fun sea => ?_)
  refine bind_same rfl (fun ⟨dep, vel⟩ => ?_)
  refine bind_same ?_ (fun hyd => ?_)
  · simp only [moveSt, moveRows]
    rw [map_same (f := moveT d) (g' := fun r => r.z3) (fun _ => rfl)]
  refine bind_same rfl (fun bed => ?_)
  refine bind_same rfl (fun _ => ?_)
  refine bind_same rfl (fun w => ?_)
  have hl : e.parts.lst ((moveSt d s).rows.map (·.y0)) w = e.parts.lst (s.rows.map (·.y0)) w := by
    refine Eq.trans ?_ (he.lst d _ w)
    simp only [moveSt, moveRows, map_map]
    rfl
  simp only [hl]
  refine bind_same rfl (fun q => ?_)
  refine bind_same rfl (fun sl => ?_)
  have ho : e.parts.overtop (e.parts.runup w) sl (moveSt d s).rows = e.parts.overtop (e.parts.runup w) sl s.rows := he.overtop d _ _ _
  refine bind_same ho (fun r => ?_)
  have hm : ∀ L, morIn e (moveSt d s) c dep hyd bed L r.1 r.2 = imv d (morIn e s c dep hyd bed L r.1 r.2) := fun _ => rfl
  have hp : (moveSt d s).passes = s.passes := rfl
  simp only [hm, hp]
  exact bind_mv (update_mv e.pp d (e.junk1 s.passes) (e.junk2 s.passes) _) (fun m => rfl)

theorem advance_mv (s : CoreSt K) (p : PassOut K) : advance e (moveSt d s) (movePass d p) = (advance e s p).map (moveSt d) := by
  unfold advance
  refine bind_same ?_ (fun bl => ?_)
  · simp only [moveSt, moveRows, length_map]
    rfl
  refine bind_same rfl (fun ts => ?_)
  show Except.ok _ = Except.ok _
  unfold moveSt
  simp only
  congr 2
  rw [apply_ite (List.map (moveSnap d))]
  congr 1
  rw [map_append]
  rfl

include he in
theorem pass_mv (s : CoreSt K) : pass e (moveSt d s) = (pass e s).map (fun r => (movePass d r.1, moveSt d r.2)) := by
  unfold Verif.Model.pass
  refine bind_mv (compute_mv d e he s) (fun p => ?_)
  exact bind_mv (advance_mv d e s p) (fun s' => rfl)

theorem initial_mv (ld : LoadOut K) : initial e (moveLoad d ld) = (initial e ld).map (moveSt d) := by
  unfold initial
  refine bind_same rfl (fun flow => bind_same rfl (fun sea => bind_same rfl (fun w => ?_)))
  refine bind_same (assemble_sc (sameChan_move d) e.pp (firstChan ld e.Dx)) (fun c => ?_)
  refine bind_same rfl (fun q => bind_same rfl (fun sl => bind_same rfl (fun ⟨dep, vel⟩ => ?_)))
  refine bind_same ?_ (fun hyd => ?_)
  · simp only [moveLoad, moveRows]
    rw [map_same (f := moveT d) (g' := fun r => r.z3) (fun _ => rfl)]
    rfl
  have hn : (moveLoad d ld).rows.length = ld.rows.length := length_map _
  simp only [hn]
  exact bind_same rfl (fun d0 => bind_same rfl (fun v => bind_same rfl (fun cw => rfl)))

/-- A trace with all Y coordinates increased. -/
def moveTr (tr : List (CoreSt K × PassOut K × CoreSt K)) : List (CoreSt K × PassOut K × CoreSt K) :=
  tr.map (fun r => (moveSt d r.1, movePass d r.2.1, moveSt d r.2.2))

include he in
theorem run_mv {s0 s : CoreSt K} {tr : List (CoreSt K × PassOut K × CoreSt K)} (h : Run e s0 tr s) :
    Run e (moveSt d s0) (moveTr d tr) (moveSt d s) := by
  induction h with
  | start => exact Run.start
  | pass h ht hp ih =>
    unfold moveTr at *
    rw [map_append]
    refine Run.pass ih ht ?_
    rw [pass_mv d e he, hp]
    rfl

end runs

end Verif.Model
