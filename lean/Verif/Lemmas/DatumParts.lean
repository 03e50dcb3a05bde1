import Verif.Lemmas.DatumRun

set_option autoImplicit false
set_option linter.unusedSectionVars false

/-! # The modelled functions of riv.py and coast.py do not depend on the vertical datum -/

namespace Verif.Model
open Verif Fl Spec
open List hiding span

section fl
variable (d : ℝ)

theorem fin_sub_sh (x : ℝ) (z : Fl ℝ) : fin (x + d) - sh d z = fin x - z := sh_sub_sh d (fin x) z

theorem sh_pair (a b : Fl ℝ) : sh d a + sh d b = sh (2 * d) (a + b) := by
  rw [sh_add, add_sh, sh, sh, sh]
  cases (a + b) <;> first | rfl | (simp; ring)

theorem sh_gap (z X e : Fl ℝ) : sh d z - X - sh d e = z - X - e := by
  unfold sh
  cases z <;> cases X <;> cases e <;> first | rfl | (simp; ring)

theorem inf_mul (t : ℝ) {X : Fl ℝ} (h : ∀ x, X ≠ fin x) : ∀ x, fin t * X ≠ fin x := by
  intro x hx
  cases X with
  | fin y => exact h y rfl
  | nan => cases hx
  | pinf =>
    change infOfSign _ = _ at hx
    unfold infOfSign at hx
    split at hx <;> [cases hx; split at hx <;> cases hx]
  | ninf =>
    change infOfSign _ = _ at hx
    unfold infOfSign at hx
    split at hx <;> [cases hx; split at hx <;> cases hx]

theorem inf_add (a b c : ℝ) (Z : Fl ℝ) {P : Fl ℝ} (h : ∀ x, P ≠ fin x) : Z + fin c - fin a + P = Z - fin b + P := by
  cases P with
  | fin x => exact absurd rfl (h x)
  | nan => cases Z <;> rfl
  | pinf => cases Z <;> rfl
  | ninf => cases Z <;> rfl

theorem ne_seep (T W : ℝ) (Z H D : Fl ℝ) :
    sh (2 * d) Z - fin (2 * T) * fin (W + d) + fin (1 - T) * (H - fin 2 * sh d D) =
      Z - fin (2 * T) * fin W + fin (1 - T) * (H - fin 2 * D) := by
  have h2 : ∀ X : Fl ℝ, (∀ x, X ≠ fin x) → ∀ x, H - X ≠ fin x := by
    intro X hX x hx
    cases X with
    | fin y => exact hX y rfl
    | nan => cases H <;> cases hx
    | pinf => cases H <;> cases hx
    | ninf => cases H <;> cases hx
  unfold sh
  simp only [mul_fin]
  by_cases hD : ∃ x, D = fin x
  · obtain ⟨D, rfl⟩ := hD
    cases H with
    | fin H =>
      cases Z with
      | fin Z => simp; ring
      | nan => rfl
      | pinf => simp; rfl
      | ninf => simp; rfl
    | nan => cases Z <;> rfl
    | pinf =>
      have e1 : ∀ x : ℝ, (pinf - fin x : Fl ℝ) = pinf := fun _ => rfl
      simp only [mul_fin, add_fin, e1]
      exact inf_add _ _ _ _ (inf_mul _ (fun x h => by cases h))
    | ninf =>
      have e1 : ∀ x : ℝ, (ninf - fin x : Fl ℝ) = ninf := fun _ => rfl
      simp only [mul_fin, add_fin, e1]
      exact inf_add _ _ _ _ (inf_mul _ (fun x h => by cases h))
  · have hD' : ∀ x, D ≠ fin x := fun x h => hD ⟨x, h⟩
    have : D + fin d = D := by
      cases D with
      | fin x => exact absurd rfl (hD' x)
      | _ => rfl
    rw [this]
    exact inf_add _ _ _ _ (inf_mul _ (h2 _ (inf_mul _ hD')))

end fl

section steady
variable (d : ℝ)

theorem steadyDepth_lf (p : SteadyPars) (w : ℝ) (dx z B z1 dep1 en1 sf1 : Fl ℝ) :
    steadyDepth { p with DsWL := w } dx (sh d z) B (sh d z1) dep1 (sh d en1) sf1 = steadyDepth p dx z B z1 dep1 en1 sf1 := by
  unfold steadyDepth
  simp only [add_sh, sh_sub_sh, sh_gap]
  rfl

/-- Energy levels lifted in the sections already computed. -/
structure EnUp (n : ℕ) (s s' : SteadyArr) : Prop where
  dep : s'.dep = s.dep
  vel : s'.vel = s.vel
  sf : s'.sf = s.sf
  len : s'.en.length = s.en.length
  en : ∀ i, n ≤ i → s'.en[i]? = (s.en[i]?).map (sh d)

theorem steady_sweep (p : SteadyPars) (w : ℝ) (dx z B : List (Fl ℝ)) (n : ℕ) : ∀ (s s' : SteadyArr), EnUp d n s s' →
    ((range n).reverse.foldlM (steadyStep { p with DsWL := w } dx (z.map (sh d)) B) s').map (fun a => (a.dep, a.vel)) =
      ((range n).reverse.foldlM (steadyStep p dx z B) s).map (fun a => (a.dep, a.vel)) := by
  induction n with
  | zero =>
    intro s s' h
    show Except.ok (s'.dep, s'.vel) = Except.ok (s.dep, s.vel)
    rw [h.dep, h.vel]
  | succ n ih =>
    intro s s' h
    rw [range_succ, reverse_append, reverse_singleton, singleton_append, foldlM_cons, foldlM_cons]
    unfold steadyStep
    simp only [bind_assoc, pure_bind]
    have e1 : ∀ {α β γ : Type} (x : Except PyErr α) (f : α → Except PyErr β) (g : β → γ), (x >>= f).map g = x >>= fun a => (f a).map g := by
      intro α β γ x f g
      cases x <;> rfl
    have hen : ixGet s'.en (n + 1) = (ixGet s.en (n + 1)).map (sh d) := by
      unfold ixGet
      rw [h.en (n + 1) le_rfl]
      cases s.en[n + 1]? <;> rfl
    simp only [e1]
    refine bind_cong' rfl (fun dxi => ?_)
    refine bind_cong (ixGet_map _ _ _) (fun zi => ?_)
    refine bind_cong' rfl (fun Bi => ?_)
    refine bind_cong (ixGet_map _ _ _) (fun z1 => ?_)
    refine bind_cong' (by rw [h.dep]) (fun dep1 => ?_)
    refine bind_cong hen (fun en1 => ?_)
    refine bind_cong' (by rw [h.sf]) (fun sf1 => ?_)
    refine bind_cong' (steadyDepth_lf d p w _ _ _ _ _ _ _) (fun dep => ?_)
    refine ih _ _ ⟨by simp only [h.dep], by simp only [h.vel]; rfl, by simp only [h.sf]; rfl, ?_, ?_⟩
    · simp only [length_set, h.len]
    · intro i hi
      simp only [getElem?_set, h.len]
      have hE : steadyEnergy { p with DsWL := w } (sh d zi) dep (steadyVel { p with DsWL := w } Bi dep) =
          sh d (steadyEnergy p zi dep (steadyVel p Bi dep)) := by
        unfold steadyEnergy
        rw [sh_add, sh_add]
        rfl
      by_cases hn : n = i
      · subst hn
        rw [if_pos rfl, if_pos rfl, hE]
        split <;> rfl
      · rw [if_neg hn, if_neg hn]
        exact h.en i (by omega)

theorem solveSteady_lf (p : SteadyPars) (dx z B : List (Fl ℝ)) :
    solveSteady { p with DsWL := p.DsWL + d } dx (z.map (sh d)) B = solveSteady p dx z B := by
  unfold solveSteady
  simp only [length_map]
  refine bind_cong (pyGet_map _ _ _) (fun zN => ?_)
  refine bind_cong' rfl (fun BN => ?_)
  have e2 : ∀ (x : Except PyErr SteadyArr), (do let s ← x; return (s.dep, s.vel) : Except PyErr (List (Fl ℝ) × List (Fl ℝ))) = x.map (fun a => (a.dep, a.vel)) := by
    intro x
    cases x <;> rfl
  simp only [e2]
  have hd : npmax (fin (p.DsWL + d) - sh d zN) (critDep { p with DsWL := p.DsWL + d } BN) = npmax (fin p.DsWL - zN) (critDep p BN) := by
    rw [fin_sub_sh]; rfl
  refine steady_sweep d p (p.DsWL + d) dx z B _ _ _ ⟨?_, ?_, ?_, ?_, ?_⟩
  · simp only [hd]
  · simp only [hd]; rfl
  · simp only [hd]; rfl
  · simp only [length_set]
  · intro i hi
    simp only [hd]
    have hE : steadyEnergy { p with DsWL := p.DsWL + d } (sh d zN) (npmax (fin p.DsWL - zN) (critDep p BN))
          (steadyVel { p with DsWL := p.DsWL + d } BN (npmax (fin p.DsWL - zN) (critDep p BN))) =
        sh d (steadyEnergy p zN (npmax (fin p.DsWL - zN) (critDep p BN)) (steadyVel p BN (npmax (fin p.DsWL - zN) (critDep p BN)))) := by
      unfold steadyEnergy
      rw [sh_add, sh_add]
      rfl
    simp only [getElem?_set, length_replicate]
    by_cases hn : z.length - 1 = i
    · rw [if_pos hn, if_pos hn, hE]
      split <;> rfl
    · rw [if_neg hn, if_neg hn, getElem?_eq_none (by rw [length_replicate]; omega)]
      rfl

end steady

section pre
variable (d : ℝ)

/-- A node of the unsteady solver, lifted. -/
noncomputable def nlf (a : PreNode) : PreNode := { a with z := sh d a.z }

noncomputable def stlf (s : PreState) : PreState := { s with nodes := s.nodes.map (nlf d) }

theorem preReaches_lf (rs : List PreReach) (ns : List PreNode) :
    preReaches rs (ns.map (nlf d)) = (preReaches rs ns).map (fun x => (x.1, nlf d x.2.1, nlf d x.2.2)) := by
  unfold preReaches
  rw [← map_tail, zip_map, zip_map_right]
  rfl

theorem preC1_lf (p : PrePars) (W : ℝ) (D : Fl ℝ) (r : PreReach) (a b : PreNode) :
    preC1 p (fin (W + d)) (sh d D) r (nlf d a) (nlf d b) = preC1 p (fin W) D r a b := by
  unfold preC1 nlf
  simp only [sh_pair, ne_seep]

theorem preErr_lf (p : PrePars) (Closed : Bool) (Q W : ℝ) (C : List (Fl ℝ × Fl ℝ)) (rs : List PreReach) (ns : List PreNode) :
    preErr p Closed Q (W + d) C rs (ns.map (nlf d)) = preErr p Closed Q W C rs ns := by
  unfold preErr
  refine bind_cong (ixGet_map _ _ _) (fun n0 => ?_)
  refine bind_cong (pyGet_map _ _ _) (fun nN => ?_)
  simp only [preReaches_lf, zipWith_map_right, length_map]
  have : (sh d nN.z + nN.h - fin (W + d) : Fl ℝ) = nN.z + nN.h - fin W := by
    rw [sh_add]
    exact sh_sub_sh d _ (fin W)
  show Except.ok (errAssemble _ _ _ _ _ (if Closed then _ else sh d nN.z + nN.h - fin (W + d))) = _
  rw [this]
  rfl

theorem preBand_lf (p : PrePars) (Closed : Bool) (rs : List PreReach) (ns : List PreNode) :
    preBand p Closed rs (ns.map (nlf d)) = preBand p Closed rs ns := by
  unfold preBand
  refine bind_cong (ixGet_map _ _ _) (fun n0 => ?_)
  refine bind_cong (pyGet_map _ _ _) (fun nN => ?_)
  simp only [preReaches_lf, map_map, length_map]
  rfl

theorem preNewton_lf (p : PrePars) (Closed : Bool) (solver : Solver) (Q W : ℝ) (C : List (Fl ℝ × Fl ℝ)) (rs : List PreReach) (fuel : ℕ) :
    ∀ s : PreState, preNewton p Closed solver Q (W + d) C rs fuel (stlf d s) =
      (preNewton p Closed solver Q W C rs fuel s).map (fun r => (stlf d r.1, r.2)) := by
  induction fuel with
  | zero => intro s; rfl
  | succ n ih =>
    intro s
    unfold preNewton
    refine bind_same (preErr_lf d p Closed Q W C rs s.nodes) (fun err => ?_)
    refine bind_same (preBand_lf d p Closed rs s.nodes) (fun band => ?_)
    have step : ∀ Delta : Option (List (Fl ℝ)), (match Delta with
        | none => (.error .unbound : Except PyErr (PreState × Bool))
        | some dl => do
          let dh ← gather dl ((List.range (stlf d s).nodes.length).map (fun i => 2 * i))
          let dV ← gather dl ((List.range (stlf d s).nodes.length).map (fun i => 2 * i + 1))
          let ns := List.zipWith (fun a (x : Fl ℝ × Fl ℝ) => preUpdate p a x.1 x.2) (stlf d s).nodes (dh.zip dV)
          let s' : PreState := { stlf d s with nodes := ns, Delta := some dl }
          if dl.all (fun x => x.abs <? fin p.Tol) then .ok (s', true)
          else preNewton p Closed solver Q (W + d) C rs n s') = Except.map (fun r : PreState × Bool => (stlf d r.1, r.2)) (match Delta with
        | none => (.error .unbound : Except PyErr (PreState × Bool))
        | some dl => do
          let dh ← gather dl ((List.range s.nodes.length).map (fun i => 2 * i))
          let dV ← gather dl ((List.range s.nodes.length).map (fun i => 2 * i + 1))
          let ns := List.zipWith (fun a (x : Fl ℝ × Fl ℝ) => preUpdate p a x.1 x.2) s.nodes (dh.zip dV)
          let s' : PreState := { s with nodes := ns, Delta := some dl }
          if dl.all (fun x => x.abs <? fin p.Tol) then .ok (s', true)
          else preNewton p Closed solver Q W C rs n s') := by
     intro Delta
     cases Delta with
     | none => rfl
     | some dl =>
      have hl : (stlf d s).nodes.length = s.nodes.length := length_map _
      simp only [hl]
      refine bind_same rfl (fun dh => bind_same rfl (fun dV => ?_))
      have hz : zipWith (fun a (x : Fl ℝ × Fl ℝ) => preUpdate p a x.1 x.2) (stlf d s).nodes (dh.zip dV) =
          (zipWith (fun a (x : Fl ℝ × Fl ℝ) => preUpdate p a x.1 x.2) s.nodes (dh.zip dV)).map (nlf d) := by
        show zipWith _ (s.nodes.map (nlf d)) _ = _
        rw [zipWith_map_left, map_zipWith]
        rfl
      simp only [hz]
      split
      · rfl
      · exact ih { s with nodes := zipWith (fun a (x : Fl ℝ × Fl ℝ) => preUpdate p a x.1 x.2) s.nodes (dh.zip dV), Delta := some dl }
    cases solver band err with
    | ok dl => exact step (some dl)
    | singular => exact step s.Delta
    | raised x => rfl

theorem preStep_lf (p : PrePars) (Closed : Bool) (solver : Solver) (dx : List (Fl ℝ)) (rs : List PreReach) (Ql Dl : ℝ)
    (sd : PreState × Fl ℝ) (bdy : ℝ × ℝ) :
    preStep p Closed solver dx rs Ql (Dl + d) (stlf d sd.1, sh d sd.2) (bdy.1, bdy.2 + d) =
      (preStep p Closed solver dx rs Ql Dl sd bdy).map (fun r => (stlf d r.1, sh d r.2)) := by
  unfold preStep
  have hC : (preReaches rs (stlf d sd.1).nodes).map (fun x => (preC1 p (fin (bdy.2 + d)) (sh d sd.2) x.1 x.2.1 x.2.2, preC2 p x.1 x.2.1 x.2.2)) =
      (preReaches rs sd.1.nodes).map (fun x => (preC1 p (fin bdy.2) sd.2 x.1 x.2.1 x.2.2, preC2 p x.1 x.2.1 x.2.2)) := by
    show (preReaches rs (sd.1.nodes.map (nlf d))).map _ = _
    rw [preReaches_lf, map_map]
    refine map_congr_left (fun x _ => ?_)
    show (preC1 p (fin (bdy.2 + d)) (sh d sd.2) x.1 (nlf d x.2.1) (nlf d x.2.2), preC2 p x.1 (nlf d x.2.1) (nlf d x.2.2)) = _
    rw [preC1_lf]
    rfl
  simp only [hC]
  refine bind_mv (preNewton_lf d p Closed solver _ _ _ rs _ sd.1) (fun ⟨s, conv⟩ => ?_)
  cases conv with
  | true => rfl
  | false =>
    have hz : (stlf d s).nodes.map (·.z) = (s.nodes.map (·.z)).map (sh d) :=
      map_mv (f := nlf d) (g := fun a : PreNode => a.z) (g' := fun a : PreNode => a.z) (f' := sh d) (fun _ => rfl) s.nodes
    have hB : (stlf d s).nodes.map (·.B) = s.nodes.map (·.B) := map_same (f := nlf d) (fun _ => rfl) s.nodes
    have hh : (stlf d s).nodes.map (fun a : PreNode => (a.h, a.V)) = s.nodes.map (fun a : PreNode => (a.h, a.V)) :=
      map_same (f := nlf d) (fun _ => rfl) s.nodes
    simp only [hz, hB, hh, Bool.false_eq_true, if_false]
    refine bind_same (solveSteady_lf d
      { n := p.n, Q := Ql, DsWL := Dl, Beta := p.Beta, Tol := p.Tol, MaxIt := p.MaxIt } dx (s.nodes.map (·.z)) (s.nodes.map (·.B))) (fun ⟨hs, Vs⟩ => ?_)
    show Except.ok _ = Except.ok _
    congr 2
    unfold stlf
    simp only
    congr 1
    rw [zipWith_map_left, map_zipWith]
    rfl

theorem preRun_lf (p : PrePars) (Closed : Bool) (solver : Solver) (dx : List (Fl ℝ)) (rs : List PreReach) (Ql Dl : ℝ) (bdy : List (ℝ × ℝ)) :
    ∀ sd : PreState × Fl ℝ,
    (bdy.map (fun x => (x.1, x.2 + d))).foldlM (preStep p Closed solver dx rs Ql (Dl + d)) (stlf d sd.1, sh d sd.2) =
      (bdy.foldlM (preStep p Closed solver dx rs Ql Dl) sd).map (fun r => (stlf d r.1, sh d r.2)) := by
  induction bdy with
  | nil => intro sd; rfl
  | cons b l ih =>
    intro sd
    rw [map_cons, foldlM_cons, foldlM_cons]
    exact bind_mv (preStep_lf d p Closed solver dx rs Ql Dl sd b) ih

/-- The input at a node, lifted. -/
noncomputable def chlf (a : ChanNode (Fl ℝ)) : ChanNode (Fl ℝ) := { a with z := sh d a.z }

theorem preInit_lf (p : PrePars) (dx : List (Fl ℝ)) (nodes : List (ChanNode (Fl ℝ))) :
    preInit p dx (nodes.map (chlf d)) = (preInit p dx nodes).map (fun r => (r.1.map (nlf d), r.2)) := by
  unfold preInit
  refine bind_same rfl (fun dx2 => ?_)
  show Except.ok _ = Except.ok _
  congr 2
  · rw [zipWith_map_left, map_zipWith]
    rfl
  · rw [← map_tail, zip_map, zipWith_map_right]
    congr 1
    funext x y
    simp only [preReach, Prod.map, chlf, sh_sub_sh]

theorem preissmann_lf (p : PrePars) (Closed : Bool) (solver : Solver) (dx : List (Fl ℝ)) (nodes : List (ChanNode (Fl ℝ))) (bdy : List (ℝ × ℝ)) :
    solveFullPreissmann p Closed solver dx (nodes.map (chlf d)) (bdy.map (fun x => (x.1, x.2 + d))) = solveFullPreissmann p Closed solver dx nodes bdy := by
  unfold solveFullPreissmann
  refine bind_cong (preInit_lf d p dx nodes) (fun ⟨ns, rs⟩ => ?_)
  refine bind_cong (pyGet_map _ _ _) (fun nN => ?_)
  have hk : ∀ s : PreState, (match (stlf d s).caller with | some c => c | none => (stlf d s).nodes.map (fun a : PreNode => (a.h, a.V))) =
      (match s.caller with | some c => c | none => s.nodes.map (fun a : PreNode => (a.h, a.V))) := by
    intro s
    have hh : (stlf d s).nodes.map (fun a : PreNode => (a.h, a.V)) = s.nodes.map (fun a : PreNode => (a.h, a.V)) :=
      map_same (f := nlf d) (fun _ => rfl) s.nodes
    rw [hh]
    rfl
  refine bind_cong (g := fun r : PreState × Fl ℝ => (stlf d r.1, sh d r.2)) ?_ (fun r => ?_)
  · show foldlM _ (_, sh d nN.z + nN.h) _ = _
    rw [sh_add]
    cases bdy with
    | nil => rfl
    | cons b l =>
      have hlast : (((b :: l).map (fun x => (x.1, x.2 + d))).getLast?).getD (0, 0) =
          (fun x : ℝ × ℝ => (x.1, x.2 + d)) (((b :: l).getLast?).getD (0, 0)) := by
        rw [getLast?_map, getLast?_eq_some_getLast (cons_ne_nil b l)]
        rfl
      rw [hlast]
      exact preRun_lf d p Closed solver dx rs _ _ (b :: l) ({ nodes := ns, Delta := none, caller := none }, nN.z + nN.h)
  · exact congrArg Except.ok (hk r.1)

end pre

theorem finOf_sh (d : ℝ) (x : Fl ℝ) : finOf (sh d x) = (finOf x).map (· + d) := by
  cases x <;> rfl

theorem bdy_lf (d : ℝ) (l : List (Fl ℝ × Fl ℝ)) :
    (l.map (fun x => (x.1, sh d x.2))).mapM (fun x => do return (← finOf x.1, ← finOf x.2) : _ → Except PyErr (ℝ × ℝ)) =
      (l.mapM (fun x => do return (← finOf x.1, ← finOf x.2) : _ → Except PyErr (ℝ × ℝ))).map (List.map (fun x => (x.1, x.2 + d))) := by
  induction l with
  | nil => rfl
  | cons a l ih =>
    rw [map_cons, mapM_cons, mapM_cons]
    refine bind_mv (g := fun x : ℝ × ℝ => (x.1, x.2 + d)) ?_ (fun x => ?_)
    · refine bind_same rfl (fun q => ?_)
      refine bind_mv (finOf_sh d a.2) (fun w => rfl)
    · refine bind_mv ih (fun y => rfl)

theorem overtopping_lf (d : ℝ) (r s : Fl ℝ) (rows : List (Transect ℝ)) (pp : PhysPars ℝ) :
    overtopping r (sh d s) (liftRows d rows) (liftPars d pp) = overtopping r s rows pp := by
  unfold overtopping liftRows
  rw [map_same (f := liftT d) (g' := cstTot r s pp) (fun t => ?_), map_same (f := liftT d) (g' := overwashProp pp) (fun t => ?_)]
  · unfold overwashProp liftT liftPars
    simp only [fin_sh, add_sh, sh_blt]
  · unfold cstTot overtopPotential liftT
    simp only [add_sh, sh_sub_sh]
    rfl

theorem realParts_lifted (d : ℝ) (pp : PhysPars ℝ) (np : NumPars) (Dx : ℝ) (HydDt : ℤ) (solver : Solver) :
    Lifted d (realParts pp np Dx HydDt solver) (realParts (liftPars d pp) np Dx HydDt solver) where
  unsteady := by
    intro c l
    unfold realParts liftChan liftPars
    simp only
    refine bind_cong (bdy_lf d l) (fun b => ?_)
    rw [zip_map_left, zipWith_map_left]
    refine Eq.trans ?_ (preissmann_lf d _ _ _ _ _ _)
    rw [map_zipWith]
    rfl
  steady := by
    intro c q w
    unfold realParts liftChan liftPars
    simp only
    refine bind_cong' rfl (fun q => ?_)
    refine bind_cong (finOf_sh d w) (fun w => ?_)
    exact solveSteady_lf d { n := pp.RoughnessManning, Q := q, DsWL := w, Beta := np.Beta, Tol := np.ErrTol, MaxIt := np.MaxIt } c.dx c.elev c.width
  bedload := rfl
  lst := rfl
  runup := rfl
  overtop := fun r s rows => overtopping_lf d r s rows pp

end Verif.Model
