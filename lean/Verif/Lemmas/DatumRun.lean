import Verif.Lemmas.Datum
import Verif.Lemmas.MovedRun

set_option autoImplicit false
set_option linter.unusedSectionVars false

/-! # Another vertical datum: whole runs -/

namespace Verif.Model
open Verif Fl Spec List

variable {K : Type} [Field K] [LinearOrder K] [IsStrictOrderedRing K]

section series
variable (d : K)

/-- A series of levels, lifted. -/
def lser (l : Series K) : Series K := l.map (fun r => (r.1, sh d r.2))

theorem interpScan_lf (x0 : K) (f0 : Fl K) (l : List (K × Fl K)) (x : K) :
    interpScan x0 (sh d f0) (l.map (fun r => (r.1, sh d r.2))) x = sh d (interpScan x0 f0 l x) := by
  induction l generalizing x0 f0 with
  | nil => rfl
  | cons r l ih =>
    obtain ⟨x1, f1⟩ := r
    simp only [map_cons, interpScan, ih, sh_sub_sh, add_sh]
    rw [apply_ite (sh d), apply_ite (sh d)]

theorem fillAt_lf (l : Series K) (t : ℤ) : fillAt (lser d l) t = sh d (fillAt l t) := by
  cases l with
  | nil => rfl
  | cons r l =>
    obtain ⟨t0, v0⟩ := r
    simp only [lser, map_cons, fillAt]
    rw [apply_ite (sh d), sh_nan, ← interpScan_lf]
    congr 2
    rw [map_map, map_map]
    rfl

theorem interpTime_lf (l : Series K) : interpTime (lser d l) = lser d (interpTime l) := by
  unfold interpTime
  have hf : (lser d l).filter (fun r => !r.2.isnan) = lser d (l.filter (fun r => !r.2.isnan)) := by
    unfold lser
    rw [filter_map]
    congr 2
    funext r
    simp only [Function.comp_def, sh_isnan]
  simp only [hf]
  conv_lhs => unfold lser
  conv_rhs => unfold lser
  rw [map_map, map_map]
  apply map_congr_left
  intro r _
  simp only [Function.comp_def, sh_isnan]
  split
  · congr 1
    exact fillAt_lf d _ _
  · rfl

theorem lookup_lf (l : Series K) (t : ℤ) : (lser d l).lookup t = (l.lookup t).map (sh d) := by
  induction l with
  | nil => rfl
  | cons r l ih =>
    unfold lser at *
    obtain ⟨t0, v⟩ := r
    simp only [map_cons, lookup, ih]
    split <;> rfl

theorem fst_lf (l : Series K) : (lser d l).map Prod.fst = l.map Prod.fst := by
  unfold lser
  rw [map_map]
  rfl

theorem orderedInsert_lf (a : ℤ × Fl K) (l : Series K) :
    (lser d l).orderedInsert (fun a b => a.1 ≤ b.1) (a.1, sh d a.2) = lser d (l.orderedInsert (fun a b => a.1 ≤ b.1) a) := by
  induction l with
  | nil => rfl
  | cons r l ih =>
    unfold lser at *
    simp only [map_cons, orderedInsert]
    split
    · rfl
    · rw [ih]; rfl

theorem sort_lf (l : Series K) : (lser d l).insertionSort (fun a b => a.1 ≤ b.1) = lser d (l.insertionSort (fun a b => a.1 ≤ b.1)) := by
  induction l with
  | nil => rfl
  | cons r l ih =>
    show ((lser d l).insertionSort _).orderedInsert _ _ = lser d ((l.insertionSort _).orderedInsert _ _)
    rw [ih, orderedInsert_lf]

theorem requestRows_lf (sel : Series K) (req : List ℤ) : requestRows (lser d sel) req = (requestRows sel req).map (lser d) := by
  unfold requestRows
  rw [show (lser d sel).map (·.1) = sel.map (·.1) from fst_lf d sel]
  split
  · show Except.ok _ = Except.ok _
    congr 1
    rw [← sort_lf]
    congr 1
    unfold lser
    rw [map_append, map_map]
    rfl
  · rfl

theorem mapM_mv {α β γ ε : Type} {f f' : α → Except ε β} {g : β → β} (h : ∀ a, f' a = (f a).map g) : ∀ l : List α, l.mapM f' = (l.mapM f).map (List.map g)
  | [] => rfl
  | a :: l => by
    rw [mapM_cons, mapM_cons]
    exact bind_mv (h a) (fun b => bind_mv (mapM_mv (γ := γ) h l) (fun bs => rfl))

theorem interpolateAt_lf (ts : Series K) (req : List ℤ) : interpolateAt (lser d ts) req = (interpolateAt ts req).map (List.map (sh d)) := by
  unfold interpolateAt
  refine bind_same rfl (fun r0 => ?_)
  refine bind_same ?_ (fun fromIx => bind_same rfl (fun rN => ?_))
  · unfold lser
    rw [lastIx_map]
  refine bind_same ?_ (fun toIx => ?_)
  · unfold lser
    rw [firstIx_map]
  refine bind_mv (g := lser d) ?_ (fun rows => ?_)
  · rw [← requestRows_lf]
    unfold lser
    rw [map_drop, map_take]
  simp only [interpTime_lf, lookup_lf]
  refine mapM_mv (γ := Unit) (fun t => ?_) _
  cases (interpTime rows).lookup t <;> rfl

theorem sum_lf (l : List (Fl K)) : Fl.sum (l.map (sh d)) = Fl.sum l + fin ((l.length : K) * d) := by
  induction l with
  | nil => simp [Fl.sum]
  | cons a l ih =>
    unfold Fl.sum at *
    simp only [map_cons, foldr_cons, ih, length_cons]
    generalize foldr (· + ·) (fin (0 : K)) l = u
    push_cast
    unfold sh
    cases a <;> cases u <;> first | rfl | (simp; ring)

theorem nanmean_lf (l : List (Fl K)) : nanmean (l.map (sh d)) = sh d (nanmean l) := by
  unfold nanmean
  rw [filter_mv (f := sh d) (g' := fun a => !a.isnan) (fun a => by rw [sh_isnan])]
  generalize l.filter (fun a => !a.isnan) = v
  simp only [length_map, sum_lf]
  by_cases hv : v = []
  · subst hv
    simp [Fl.sum, div_fin_def, infOfSign, sh]
  · have hpos : (0 : K) < (v.length : K) := by
      exact_mod_cast length_pos_iff.mpr hv
    have hne := ne_of_gt hpos
    have hp : (pinf / fin (v.length : K) : Fl K) = pinf := if_pos hpos.le
    have hn : (ninf / fin (v.length : K) : Fl K) = ninf := if_pos hpos.le
    generalize Fl.sum v = u
    unfold sh
    cases u with
    | nan => rfl
    | pinf => show pinf / _ = pinf / _ + _; rw [hp]; rfl
    | ninf => show ninf / _ = ninf / _ + _; rw [hn]; rfl
    | fin x =>
      rw [add_fin, div_fin _ _ hne, div_fin _ _ hne, add_fin]
      congr 1
      field_simp

theorem scatter_mv {α β : Type} {f f' : α → β → α} {g : α → α} (h : ∀ a v, f' (g a) v = g (f a v)) : ∀ (l : List α) (ix : List ℕ) (vs : List β),
    scatter f' (l.map g) ix vs = (scatter f l ix vs).map (List.map g)
  | l, [], [] => rfl
  | l, [], _ :: _ => rfl
  | l, _ :: _, [] => rfl
  | l, i :: is, v :: vs => by
    unfold scatter
    refine bind_mv (ixGet_map g l i) (fun old => ?_)
    rw [h, ← scatter_mv h, map_set]

theorem store_lf (dep vel : List (Fl K)) (online outlet flag : List ℕ) (z : List (Fl K)) (C : Bool) :
    storeHydraulics dep vel online outlet flag (z.map (sh d)) C = (storeHydraulics dep vel online outlet flag z C).map (liftHyd d) := by
  unfold storeHydraulics
  rw [length_map]
  refine bind_mv (scatter_mv (fun a v => sh_add d a v) _ _ _) (fun wl => ?_)
  refine bind_same rfl (fun mn => bind_same rfl (fun mx => ?_))
  refine bind_mv (ixGet_map _ _ _) (fun wmin => ?_)
  have h1 : ∀ (p : ℕ → Prop) [DecidablePred p] (w0 : Fl K) (l : List (Fl K)), (l.map (sh d)).mapIdx (fun i w => if p i then sh d w0 else w) =
      (l.mapIdx (fun i w => if p i then w0 else w)).map (sh d) := by
    intro p _ w0 l
    refine mapIdx_mv (fun i a => ?_) _
    exact (apply_ite (sh d) _ _ _).symm
  simp only [h1]
  refine bind_mv (ixGet_map _ _ _) (fun wmax => ?_)
  simp only [h1]
  refine bind_same rfl (fun lv => ?_)
  split
  · rfl
  · exact bind_same rfl (fun od => bind_same rfl (fun ov => rfl))

end series

section chan
variable (d : K)

theorem sameGeo_lift : SameGeo (liftT d : Transect K → Transect K) where
  x := fun _ => rfl
  ow := fun _ => rfl
  lw := fun _ => rfl

/-- Arguments of `assembleChannel`, lifted. -/
def alf (a : ChanIn K) : ChanIn K :=
  { a with rows := liftRows d a.rows, EndElev := sh d a.EndElev, RiverElev := a.RiverElev.map (sh d), LagoonWL := a.LagoonWL.map (sh d) }

theorem zipWith_sub_lf (w : List (Fl K)) (rs : List (Transect K)) :
    zipWith (fun w (r : Transect K) => w - r.z3) (w.map (sh d)) (rs.map (liftT d)) = zipWith (fun w (r : Transect K) => w - r.z3) w rs := by
  rw [zipWith_map]
  simp only [liftT, sh_sub_sh]

theorem chanHyd_lf (a : ChanIn K) (on out : List ℕ) (C : Bool) (onRows : List (Transect K)) :
    chanHyd (alf d a) on out C (onRows.map (liftT d)) = chanHyd a on out C onRows := by
  unfold chanHyd
  refine bind_cong (gather_mv _ _ _) (fun wl => ?_)
  refine bind_cong' rfl (fun lv => ?_)
  simp only [zipWith_sub_lf]
  rfl

theorem assemble_lf [FloorRing K] (pp : PhysPars K) (a : ChanIn K) :
    assembleChannel (liftPars d pp) (alf d a) = (assembleChannel pp a).map (liftChan d) := by
  unfold assembleChannel
  refine bind_same ?_ (fun X0 => ?_)
  · show firstIx _ (a.rows.map (liftT d)) = _
    simp only [firstIx_map]
    rfl
  refine bind_same (outletStage_sc (sameGeo_lift d) pp a) (fun ⟨outlet, w, C⟩ => ?_)
  refine bind_mv (ixGet_map _ _ _) (fun r0 => ?_)
  refine bind_same rfl (fun _ => ?_)
  refine bind_same (congrArg pyAssert (all_mv (fun t => rfl) _)) (fun _ => ?_)
  refine bind_same (lagoonStage_sc (sameGeo_lift d) a _ _) (fun s => ?_)
  refine bind_same (cutStage_sc (sameGeo_lift d) pp a s C) (fun ⟨s, C⟩ => ?_)
  refine bind_mv (gather_mv _ _ _) (fun on => ?_)
  refine bind_mv (g := map (liftT d)) ?_ (fun ow => ?_)
  · show (if C = true then _ else gather (a.rows.map (liftT d)) outlet) = _
    split
    · rfl
    · exact gather_mv _ _ _
  have hel : (alf d a).RiverElev ++ (on.map (liftT d)).map (·.z3) ++ (if C then [] else (ow.map (liftT d)).map (·.z1) ++
        [(alf d a).EndElev, pymin (fin (liftPars d pp).MaxOutletElev) (alf d a).EndElev]) =
      (a.RiverElev ++ on.map (·.z3) ++ (if C then [] else ow.map (·.z1) ++ [a.EndElev, pymin (fin pp.MaxOutletElev) a.EndElev])).map (sh d) := by
    rw [map_append, map_append, apply_ite (List.map (sh d)), map_append]
    simp only [map_map]
    congr 1
    congr 2
    simp only [map_cons, map_nil]
    rw [← sh_pymin]
    rfl
  have hg : chanGeom (liftPars d pp) (alf d a) s C outlet w (on.map (liftT d)) (ow.map (liftT d)) =
      ((chanGeom pp a s C outlet w on ow).1, (chanGeom pp a s C outlet w on ow).2.1, (chanGeom pp a s C outlet w on ow).2.2.1.map (sh d),
        (chanGeom pp a s C outlet w on ow).2.2.2) := by
    unfold chanGeom
    simp only [hel, length_map]
    have hr : (alf d a).RiverElev.length = a.RiverElev.length := length_map _
    have hw : (on.map (liftT d)).map lagWidth = on.map lagWidth := map_same (fun _ => rfl) _
    simp only [hr, hw]
    rfl
  rw [hg]
  obtain ⟨dx, flag, elev, width, area, len⟩ := chanGeom pp a s C outlet w on ow
  refine bind_same (chanHyd_lf d a _ _ _ _) (fun dv => ?_)
  refine bind_same rfl (fun _ => bind_same rfl (fun _ => ?_))
  refine bind_same ?_ (fun _ => bind_same rfl (fun _ => bind_same rfl (fun _ => bind_same rfl (fun _ => rfl))))
  exact congrArg pyAssert (congrArg not (any_mv (sh_isnan d) _))

end chan

section runs

theorem bind_at {α β : Type} {x : Except PyErr α} {a : α} {f : α → Except PyErr β} (h : x = .ok a) : (x >>= f) = f a := by
  rw [h]; rfl

variable [FloorRing K] (d : K) (e : Env K) {p' : Parts K} (he : Lifted d e.parts p')

include he in
theorem hydraulics_lf (c : ChanOut K) (flow sea : List (Fl K)) :
    hydraulics (liftEnv d p' e) (liftChan d c) flow (sea.map (sh d)) = hydraulics e c flow sea := by
  unfold hydraulics
  have h1 : (liftEnv d p' e).parts.unsteady (liftChan d c) (flow.zip (sea.map (sh d))) = e.parts.unsteady c (flow.zip sea) := by
    rw [← he.unsteady c (flow.zip sea)]
    show p'.unsteady _ _ = _
    congr 1
    rw [zip_map_right]
    rfl
  rw [h1]
  split
  · rfl
  · refine bind_cong' rfl (fun q => ?_)
    refine bind_cong (pyGet_map _ _ _) (fun w => ?_)
    exact he.steady c q w

/-- In this pass no level is below the mark of dry transects, and no channel merges with the lagoon. -/
structure Plain (d : K) (e : Env K) (s : CoreSt K) (p : PassOut K) : Prop where
  lagoon : ∀ v ∈ p.hyd.LagoonWL, v ≠ dry
  outlet : ∀ (i : ℕ) (r : Transect K) (v : Fl K), s.rows[i]? = some r → p.hyd.OutletDep[i]? = some v → v + r.z1 ≠ dry
  crest : ∀ r ∈ p.mor.rows, AboveMark d r
  merge : NoMerge e.pp (e.junk1 s.passes) (morIn e s p.chan p.dep p.hyd p.bed p.LST p.CST p.owp)

include he in
theorem compute_lf (s : CoreSt K) {p : PassOut K} (h : compute e s = .ok p) (hp : Plain d e s p) :
    compute (liftEnv d p' e) (liftSt d s) = .ok (liftPass d p) := by
  unfold compute at h ⊢
  simp only [bind_ok, pure_ok, pyAssert_ok] at h
  obtain ⟨c, e1, win, e2, flow, e3, sea, e4, ⟨dep, vel⟩, e5, hyd, e6, bed, e7, _, e8, w, e9, q, e10, sl, e11, ⟨CST, owp⟩, e12, m, e13, rfl⟩ := h
  have a1 : assembleChannel (liftEnv d p' e).pp (chanIn (liftEnv d p' e) (liftSt d s)) = .ok (liftChan d c) := by
    have := assemble_lf d e.pp (chanIn e s)
    rw [e1] at this
    exact this
  refine Eq.trans (bind_at a1) ?_
  refine Eq.trans (bind_at e2) ?_
  refine Eq.trans (bind_at e3) ?_
  have a4 : interpolateAt (liftEnv d p' e).sea win = .ok (sea.map (sh d)) := by
    have := interpolateAt_lf d e.sea win
    rw [e4] at this
    exact this
  refine Eq.trans (bind_at a4) ?_
  refine Eq.trans (bind_at ((hydraulics_lf d e he c flow sea).trans e5)) ?_
  have a6 : storeHydraulics dep vel (liftChan d c).online (liftChan d c).outlet (liftChan d c).flag ((liftSt d s).rows.map (·.z3)) (liftChan d c).closed =
      .ok (liftHyd d hyd) := by
    have hz : (liftSt d s).rows.map (·.z3) = (s.rows.map (·.z3)).map (sh d) := by
      show (s.rows.map (liftT d)).map _ = _
      rw [map_map, map_map]
      rfl
    have := store_lf d dep vel c.online c.outlet c.flag (s.rows.map (·.z3)) c.closed
    rw [e6] at this
    rw [hz]
    exact this
  refine Eq.trans (bind_at a6) ?_
  have a7 : (liftEnv d p' e).parts.bedload (liftChan d c).width dep vel = .ok bed := by
    show p'.bedload _ _ _ = _
    rw [he.bedload]
    exact e7
  refine Eq.trans (bind_at a7) ?_
  have a8 : pyAssert (decide (bed.length = (liftChan d c).elev.length - 1)) = .ok () := by
    rw [show (liftChan d c).elev.length = c.elev.length from length_map _]
    exact pyAssert_ok.mpr e8
  refine Eq.trans (bind_at a8) ?_
  refine Eq.trans (bind_at e9) ?_
  refine Eq.trans (bind_at e10) ?_
  have a11 : pyGet (sea.map (sh d)) (-1) = .ok (sh d sl) := by
    rw [pyGet_map, e11]; rfl
  refine Eq.trans (bind_at a11) ?_
  have a12 : (liftEnv d p' e).parts.overtop ((liftEnv d p' e).parts.runup w) (sh d sl) (liftSt d s).rows = .ok (CST, owp) := by
    show p'.overtop (p'.runup w) (sh d sl) (liftRows d s.rows) = _
    rw [he.runup, he.overtop]
    exact e12
  refine Eq.trans (bind_at a12) ?_
  have hl : (liftEnv d p' e).parts.lst ((liftSt d s).rows.map (·.y0)) w = e.parts.lst (s.rows.map (·.y0)) w := by
    show p'.lst ((s.rows.map (liftT d)).map _) w = _
    rw [he.lst, map_map]
    rfl
  have a13 : updateMorphology (liftEnv d p' e).pp ((liftEnv d p' e).junk1 (liftSt d s).passes) ((liftEnv d p' e).junk2 (liftSt d s).passes)
      (morIn (liftEnv d p' e) (liftSt d s) (liftChan d c) dep (liftHyd d hyd) bed ((liftEnv d p' e).parts.lst ((liftSt d s).rows.map (·.y0)) w) CST owp) =
      .ok (liftMor d m) := by
    rw [hl]
    exact update_lf e.pp d (e.junk1 s.passes) (e.junk2 s.passes) (morIn e s c dep hyd bed _ CST owp) ⟨hp.lagoon, hp.outlet⟩ hp.merge e13 hp.crest
  refine Eq.trans (bind_at a13) ?_
  show Except.ok _ = Except.ok _
  rw [hl]
  rfl

theorem tsRecord_lf (p : PassOut K) (t dt : ℤ) : tsRecord (liftPass d p) t dt = (tsRecord p t dt).map (liftTs d) := by
  unfold tsRecord
  refine bind_same rfl (fun _ => bind_same rfl (fun _ => bind_same rfl (fun _ => bind_same rfl (fun _ => ?_))))
  show Except.ok _ = Except.ok _
  unfold liftTs
  simp only
  rw [← nanmean_lf]
  rfl

theorem advance_lf (s : CoreSt K) (p : PassOut K) : advance (liftEnv d p' e) (liftSt d s) (liftPass d p) = (advance e s p).map (liftSt d) := by
  unfold advance
  refine bind_same ?_ (fun bl => ?_)
  · simp only [liftSt, liftRows, length_map]
    rfl
  refine bind_mv (g := List.map (liftTs d)) ?_ (fun ts => ?_)
  · have hd : (liftPass d p).mor = liftMor d p.mor := rfl
    simp only [hd, liftMor, liftSt, liftEnv]
    generalize (if e.tp.EndTime - s.time < p.mor.MorDt then e.tp.EndTime - s.time else p.mor.MorDt) = dt
    split
    · refine bind_mv (tsRecord_lf d p _ _) (fun r => ?_)
      show Except.ok _ = Except.ok _
      rw [map_append]
      rfl
    · rfl
  show Except.ok _ = Except.ok _
  unfold liftSt
  simp only
  congr 2
  rw [apply_ite (List.map (liftSnap d))]
  congr 1
  rw [map_append]
  rfl

include he in
theorem pass_lf (s : CoreSt K) {p : PassOut K} {s' : CoreSt K} (h : pass e s = .ok (p, s')) (hp : Plain d e s p) :
    pass (liftEnv d p' e) (liftSt d s) = .ok (liftPass d p, liftSt d s') := by
  unfold Verif.Model.pass at h ⊢
  simp only [bind_ok, pure_ok] at h
  obtain ⟨p1, h1, s1, h2, h3⟩ := h
  obtain ⟨rfl, rfl⟩ := Prod.mk.inj h3
  rw [compute_lf d e he s h1 hp]
  show (advance _ _ _ >>= _) = _
  rw [advance_lf, h2]
  rfl

include he in
theorem initial_lf (ld : LoadOut K) : initial (liftEnv d p' e) (liftLoad d ld) = (initial e ld).map (liftSt d) := by
  unfold initial
  refine bind_same rfl (fun flow => ?_)
  refine bind_mv (interpolateAt_lf d e.sea _) (fun sea => ?_)
  refine bind_same rfl (fun w => ?_)
  have hf : firstChan (liftLoad d ld) e.Dx = alf d (firstChan ld e.Dx) := by
    unfold firstChan liftLoad alf
    simp only [zipWith_map, sh_sub_sh]
  refine bind_mv (g := liftChan d) ?_ (fun c => ?_)
  · show assembleChannel (liftPars d e.pp) (firstChan (liftLoad d ld) e.Dx) = _
    rw [hf]
    exact assemble_lf d e.pp _
  refine bind_same rfl (fun q => ?_)
  refine bind_mv (ixGet_map _ _ _) (fun sl => ?_)
  refine bind_same ?_ (fun ⟨dep, vel⟩ => ?_)
  · show (if ld.LagoonVel.all (· ==? fin 0) = true then p'.steady _ _ _ else _) = _
    rw [he.steady]
    rfl
  refine bind_mv (g := liftHyd d) ?_ (fun hyd => ?_)
  · show (if ld.LagoonVel.all (· ==? fin 0) = true then storeHydraulics _ _ _ _ _ ((ld.rows.map (liftT d)).map _) _ else _) = Except.map _ (if ld.LagoonVel.all (· ==? fin 0) = true then _ else _)
    rw [map_mv (f := liftT d) (g' := fun r : Transect K => r.z3) (f' := sh d) (fun _ => rfl), apply_ite (Except.map (liftHyd d))]
    congr 1
    exact store_lf d _ _ _ _ _ _ _
  refine bind_same rfl (fun d0 => bind_same rfl (fun v => bind_same rfl (fun cw => ?_)))
  show Except.ok _ = Except.ok _
  unfold liftSt liftSnap liftTs
  have hn : (liftLoad d ld).rows.length = ld.rows.length := length_map _
  have hr : (liftLoad d ld).RiverElev.length = ld.RiverElev.length := length_map _
  have hm : nanmean (liftHyd d hyd).LagoonWL = sh d (nanmean hyd.LagoonWL) := nanmean_lf d _
  simp only [hn, hr, hm]
  rfl

/-- A trace, lifted. -/
def liftTr (tr : List (CoreSt K × PassOut K × CoreSt K)) : List (CoreSt K × PassOut K × CoreSt K) :=
  tr.map (fun r => (liftSt d r.1, liftPass d r.2.1, liftSt d r.2.2))

include he in
theorem run_lf {s0 s : CoreSt K} {tr : List (CoreSt K × PassOut K × CoreSt K)} (h : Run e s0 tr s) (hp : ∀ r ∈ tr, Plain d e r.1 r.2.1) :
    Run (liftEnv d p' e) (liftSt d s0) (liftTr d tr) (liftSt d s) := by
  induction h with
  | start => exact Run.start
  | pass h ht hpass ih =>
    unfold liftTr at *
    rw [map_append]
    refine Run.pass (ih (fun r hr => hp r (mem_append_left _ hr))) ht ?_
    exact pass_lf d e he _ hpass (hp _ (mem_append_right _ (mem_singleton.mpr rfl)))

end runs

end Verif.Model
