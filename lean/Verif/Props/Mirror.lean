import Verif.Lemmas.MirrorRun
import Verif.Props.Coast
import Verif.Props.CoreSample

set_option autoImplicit false
set_option linter.unusedSectionVars false

/-! # C141: left and right -/

namespace Verif.Props
open Verif Verif.Model Verif.Spec Fl

variable {K : Type} [Field K] [LinearOrder K] [IsStrictOrderedRing K]

/-- The modelled functions of riv.py and coast.py treat left and right alike. -/
theorem impartial_real (pp : PhysPars ℝ) (np : NumPars) (Dx : ℝ) (HydDt : ℤ) (solver : Solver) : Impartial (realParts pp np Dx HydDt solver) where
  unsteady _ _ _ := rfl
  steady _ _ _ _ := rfl
  lst y w := C06_mirror y (fin Dx) w.WavePower w.WavePeriod w.Wlen_h w.EDir_h pp
  runup _ := rfl
  overtop r s rows := by
    show overtopping r s (flipRows rows) pp = (overtopping r s rows pp).map _
    have e1 : (flipRows rows).map (cstTot r s pp) = (rows.map (cstTot r s pp)).reverse := by
      unfold flipRows
      rw [List.map_reverse, List.map_map]
      rfl
    have e2 : (flipRows rows).map (overwashProp pp) = (rows.map (overwashProp pp)).reverse := by
      unfold flipRows
      rw [List.map_reverse, List.map_map]
      rfl
    unfold overtopping
    rw [e1, e2]
    dsimp only
    rw [List.all_reverse]
    exact bind_same rfl (fun _ => rfl)

/-- C141, partial: the channel along the coast with left and right exchanged is the same one, or fails to be assembled in the same way. -/
theorem C141_channel_partial [FloorRing K] (pp : PhysPars K) {a : ChanIn K} (h : Aside a.Closed a.Dx a.EndX0 a.EndX1) (hd : a.Dx ≠ 0) (hs : SizedIn a)
    (hx : (a.rows.map (·.x)).Nodup) : assembleChannel pp (flipIn a) = (assembleChannel pp a).map (flipChan a.rows.length) :=
  assemble_flip pp h hd hs hx

/-- C141, partial: with waves from the other side, everything in a pass up to the morphological update is the mirror image.  (Missing: the
update itself, see `C141_refuted`; outlets at the river, ends of outlets on transects, see `C141_refuted_river` and `C141_refuted_end`.) -/
theorem C141_partial [FloorRing K] {e : Env K} {s : CoreSt K} (hI : Impartial e.parts) (hA : Aside s.Closed e.Dx s.EndX0 s.EndX1) (hd : e.Dx ≠ 0)
    (hs : SizedIn (chanIn e s)) (hx : (s.rows.map (·.x)).Nodup) {p p' : PassOut K} (h : compute e s = .ok p)
    (h' : compute (flipEnv e) (flipSt s) = .ok p') :
    p'.chan = flipChan s.rows.length p.chan ∧ p'.window = p.window ∧ p'.flow = p.flow ∧ p'.sea = p.sea ∧ p'.dep = p.dep ∧ p'.vel = p.vel ∧
    p'.hyd = flipHyd p.hyd ∧ p'.bed = p.bed ∧ p'.LST = (p.LST.map (fun q => -q)).reverse ∧ p'.CST = p.CST.reverse ∧ p'.owp = p.owp.reverse ∧
    ∀ bl, storeBedload p.bed s.rows.length p.chan.online p.chan.outlet p.chan.flag p.chan.closed = .ok bl →
      storeBedload p'.bed s.rows.length p'.chan.online p'.chan.outlet p'.chan.flag p'.chan.closed = .ok (bl.1.reverse, bl.2.1.reverse, bl.2.2) := by
  rw [compute_flip hI hA hd hs hx h] at h'
  obtain ⟨fl, sl, hc⟩ := compute_inv h
  obtain ⟨c1, c2⟩ := chan_lt hc.chan
  cases hu : updateMorphology e.pp (e.junk1 s.passes) (e.junk2 s.passes) (flipMorIn (morIn e s p.chan p.dep p.hyd p.bed p.LST p.CST p.owp)) with
  | error er => rw [hu] at h'; cases h'
  | ok m =>
    rw [hu] at h'
    cases h'
    refine ⟨rfl, rfl, rfl, rfl, rfl, rfl, rfl, rfl, rfl, rfl, rfl, fun bl hbl => ?_⟩
    have := storeBedload_flip (bed := p.bed) (flag := p.chan.flag) c1 c2 p.chan.closed
    rw [show (chanIn e s).rows = s.rows from rfl, hbl] at this
    exact this

/-- C141, partial: the pass of the mirrored coast fails before the morphological update only if the pass of the coast does. -/
theorem C141_total_partial [FloorRing K] {e : Env K} {s : CoreSt K} (hI : Impartial e.parts) (hA : Aside s.Closed e.Dx s.EndX0 s.EndX1) (hd : e.Dx ≠ 0)
    (hs : SizedIn (chanIn e s)) (hx : (s.rows.map (·.x)).Nodup) {p : PassOut K} (h : compute e s = .ok p) :
    (∃ p', compute (flipEnv e) (flipSt s) = .ok p') ∨
    ∃ er, compute (flipEnv e) (flipSt s) = .error er ∧
      updateMorphology e.pp (e.junk1 s.passes) (e.junk2 s.passes) (flipMorIn (morIn e s p.chan p.dep p.hyd p.bed p.LST p.CST p.owp)) = .error er := by
  rw [compute_flip hI hA hd hs hx h]
  cases updateMorphology e.pp (e.junk1 s.passes) (e.junk2 s.passes) (flipMorIn (morIn e s p.chan p.dep p.hyd p.bed p.LST p.CST p.owp)) with
  | error er => exact Or.inr ⟨er, rfl, rfl⟩
  | ok m => exact Or.inl ⟨_, rfl⟩

/-! ## A coast -/

/-- The functions of the other examples, with transport along the shore in the direction of the waves. -/
def miParts : Parts ℚ := { coParts with lst := fun y0 w => y0.tail.map (fun _ => w.EDir_h) }

theorem mi_impartial : Impartial miParts where
  unsteady _ _ _ := rfl
  steady _ _ _ _ := rfl
  lst y w := by
    show y.reverse.tail.map (fun _ => -w.EDir_h) = ((y.tail.map (fun _ => w.EDir_h)).map (fun q => -q)).reverse
    simp [List.map_const']
  runup _ := rfl
  overtop r s rows := by
    show Except.ok _ = Except.ok _
    unfold flipRows
    simp [List.map_const', Function.comp_def]

/-- Waves that move `q` from left to right. -/
def miEnv (q : ℚ) : Env ℚ :=
  { coEnv with parts := miParts, waves := [(0, { coWave with EDir_h := fin q }), (1000 * sec, { coWave with EDir_h := fin q })] }

theorem mi_flip (q : ℚ) : flipEnv (miEnv q) = miEnv (-q) := rfl

/-- The first state of a run along that coast. -/
def miSt : Except PyErr (CoreSt ℚ) := initial (miEnv 1) coLoad

/-- Checked by evaluation: two passes with waves from opposite sides along coasts that are mirror images. -/
theorem mi_run : okAnd miSt (fun s => decide (s.EndX0 = fin 15) && decide (s.EndX1 = fin 24) && decide (s.Closed = false) &&
    decide (s.rows.map (·.x) = [-40, -30, -20, -10, 0, 10, 20, 30, 40]) && decide (s.rows.length = 9) &&
    decide (s.hyd.LagoonWL.length = 9 ∧ s.hyd.LagoonVel.length = 9 ∧ s.hyd.OutletDep.length = 9 ∧ s.hyd.OutletVel.length = 9) &&
    okAnd (compute (miEnv 1) s) (fun p => okAnd (compute (miEnv (-1)) (flipSt s)) (fun p' =>
      decide (p.LST = List.replicate 8 (fin 1)) && decide ((p.mor.rows[7]?).map (·.y0) = some (fin (1397 / 14))) &&
      decide ((p'.mor.rows[1]?).map (·.y0) = some (fin (13999 / 140))) && decide (p.mor.rows.length = 9) && decide (p'.mor.MorDt = 30 * sec)))) = true := by
  decide +kernel

/-- The coast of the examples meets the hypotheses of `C141_partial`. -/
theorem mi_aside : ∃ s p p', miSt = .ok s ∧ Aside s.Closed (miEnv 1).Dx s.EndX0 s.EndX1 ∧ (miEnv 1).Dx ≠ 0 ∧ SizedIn (chanIn (miEnv 1) s) ∧ (s.rows.map (·.x)).Nodup ∧
    compute (miEnv 1) s = .ok p ∧ compute (flipEnv (miEnv 1)) (flipSt s) = .ok p' ∧ p.LST = List.replicate 8 (fin 1) ∧
    (p.mor.rows[7]?).map (·.y0) = some (fin (1397 / 14)) ∧ (p'.mor.rows[1]?).map (·.y0) = some (fin (13999 / 140)) ∧ p.mor.rows.length = 9 := by
  obtain ⟨s, hs, h⟩ := okAnd_iff.mp mi_run
  simp only [Bool.and_eq_true, decide_eq_true_eq] at h
  obtain ⟨⟨⟨⟨⟨⟨h0, h1⟩, h2⟩, h3⟩, h4⟩, l1, l2, l3, l4⟩, h⟩ := h
  obtain ⟨p, hp, h⟩ := okAnd_iff.mp h
  obtain ⟨p', hp', h⟩ := okAnd_iff.mp h
  simp only [Bool.and_eq_true, decide_eq_true_eq] at h
  obtain ⟨⟨⟨⟨a1, a2⟩, a3⟩, a4⟩, a5⟩ := h
  refine ⟨s, p, p', hs, ⟨⟨15, h0, by norm_num⟩, fun _ => ⟨24, h1, by rw [h0, h1]; simp, fun k hk => ?_⟩⟩, by decide +kernel, ⟨?_, ?_, ?_, ?_⟩, ?_, hp, hp', a1, a2, a3, a4⟩
  · have : (24 : ℚ) = ((k * 10 : ℤ) : ℚ) := by rw [hk]; push_cast; rfl
    have : (24 : ℤ) = k * 10 := by exact_mod_cast this
    omega
  · exact l1.trans h4.symm
  · exact l2.trans h4.symm
  · exact l3.trans h4.symm
  · exact l4.trans h4.symm
  · rw [h3]; decide

/-- C141 is false: with transport from right to left at the outlet, the shoreline beyond it retreats by what should be its rate of retreat, whatever the
step (mor.py 152): `13999/140` here, against `1397/14` with waves from the left. -/
theorem C141_refuted : ∃ (e : Env ℚ) (s : CoreSt ℚ) (p p' : PassOut ℚ), Impartial e.parts ∧ Aside s.Closed e.Dx s.EndX0 s.EndX1 ∧ e.Dx ≠ 0 ∧
    SizedIn (chanIn e s) ∧ (s.rows.map (·.x)).Nodup ∧ compute e s = .ok p ∧ compute (flipEnv e) (flipSt s) = .ok p' ∧ p'.mor.rows ≠ flipRows p.mor.rows := by
  obtain ⟨s, p, p', _, h1, h2, h3, h4, h5, h6, _, h7, h8, h9⟩ := mi_aside
  refine ⟨miEnv 1, s, p, p', mi_impartial, h1, h2, h3, h4, h5, h6, fun hc => ?_⟩
  rw [hc] at h8
  unfold flipRows at h8
  rw [List.getElem?_reverse (by simp [h9]), List.length_map, h9] at h8
  simp only [List.getElem?_map, Option.map_map] at h8
  have : (p.mor.rows[7]?).map (·.y0) = some (fin (13999 / 140)) := h8
  rw [h7] at this
  simp only [Option.some.injEq, Fl.fin.injEq] at this
  norm_num at this

/-- With a closed lagoon and no outlet end, the channel goes from the river to the left. -/
theorem nan_left [FloorRing K] {pp : PhysPars K} {a : ChanIn K} {c : ChanOut K} (hc : a.Closed = true) (hn : a.EndX0 = nan) (h : assembleChannel pp a = .ok c) :
    ∃ X0, firstIx (fun r : Transect K => fin r.x ==? fin 0) a.rows = .ok X0 ∧ c.online.Nodup ∧ ∀ i ∈ c.online, i ≤ X0 := by
  obtain ⟨X0, r0, w, C1, s1, s, onRows, outRows, hA⟩ := assemble_inv h
  have hC1 : C1 = true := by
    have := hA.outlet
    unfold outletStage at this
    rw [hc] at this
    simp only [if_true, pure_ok, Prod.mk.injEq] at this
    exact this.2.2.symm
  have hs1 : ∃ first, s1.online = arangeDown X0 first := by
    have := hA.lag
    unfold lagoonStage at this
    rw [hn, hC1] at this
    have e1 : ((nan : Fl K) ==? fin 0) = false := rfl
    have e2 : ((fin 0 : Fl K) <? nan) = false := rfl
    simp only [e1, e2, Bool.false_eq_true, if_false, if_true, bind_ok, pure_ok] at this
    obtain ⟨f, _, rfl⟩ := this
    exact ⟨f, rfl⟩
  obtain ⟨f, hf⟩ := hs1
  have hsub : s.online.Sublist s1.online := by
    obtain ⟨_, _, _, _, _, _, _, h | ⟨k, _, _, _, h, _⟩⟩ := cut_inv hA.cut
    · rw [h.1]
    · rw [h]; exact List.take_sublist _ _
  rw [hf] at hsub
  rw [hA.online]
  exact ⟨X0, hA.x0, hsub.nodup (nodup_arangeDown _ _), fun i hi => (mem_arangeDown.mp (hsub.subset hi)).2⟩

/-- C141 is false of the channel: a closed lagoon without an outlet end (which the program sets to nan) always drains to the left (riv.py 409), so the
lagoon of the mirrored coast is another one. -/
theorem C141_refuted_closed [FloorRing K] {pp : PhysPars K} {a : ChanIn K} {c : ChanOut K} (hc : a.Closed = true) (hn : a.EndX0 = nan)
    (hx : (a.rows.map (·.x)).Nodup) (h : assembleChannel pp a = .ok c) (h2 : 1 < c.online.length) :
    assembleChannel pp (flipIn a) ≠ .ok (flipChan a.rows.length c) := by
  intro h'
  obtain ⟨X0, h0, hnd, hle⟩ := nan_left hc hn h
  obtain ⟨X1, h1, _, hle'⟩ := nan_left (a := flipIn a) hc (by show -a.EndX0 = nan; rw [hn]; rfl) h'
  have hX := (List.getElem?_eq_some_iff.mp (firstIx_ok.mp h0).1.choose_spec.1).1
  rw [show (flipIn a).rows = flipRows a.rows from rfl, river_flip hx, h0] at h1
  cases h1
  have heq : ∀ i ∈ c.online, i = X0 := by
    intro i hi
    have e1 := hle i hi
    have e2 := hle' (flipIx a.rows.length i) (List.mem_map_of_mem hi)
    unfold flipIx at e2
    omega
  match hl : c.online, h2 with
  | x :: y :: t, _ =>
    rw [hl] at hnd heq
    have e1 := heq x (by simp)
    have e2 := heq y (by simp)
    simp [e1, e2] at hnd

/-- The lagoon attached to an open channel that leaves it at the river is the one on the right. -/
theorem river_right [FloorRing K] {pp : PhysPars K} {a : ChanIn K} {c : ChanOut K} (h0 : a.EndX0 = fin 0) (h : assembleChannel pp a = .ok c) (ho : c.closed = false) :
    c.lagArea[a.RiverElev.length]? = some (nansum ((a.rows.filter (fun r => decide (0 < r.x))).map (fun r => (r.y3 - r.y4) * fin a.Dx))) := by
  obtain ⟨X0, r0, w, C1, s1, s, onRows, outRows, hA⟩ := assemble_inv h
  have hcut := cut_inv hA.cut
  rw [ho] at hcut
  obtain ⟨_, _, _, _, _, _, _, ⟨hs, hC, _⟩ | ⟨_, _, hf, _⟩⟩ := hcut
  swap
  · cases hf
  subst hs
  have hl := hA.lag
  unfold lagoonStage at hl
  rw [h0, ← hC] at hl
  have e1 : ((fin 0 : Fl K) ==? fin 0) = true := by simp
  simp only [e1, if_true, Bool.false_eq_true, if_false, pure_ok] at hl
  have hg := hA.geom
  unfold chanGeom at hg
  simp only [Prod.mk.injEq] at hg
  obtain ⟨_, _, he, _, hg, _⟩ := hg
  rw [hg]
  have hon := gather_length hA.hon
  subst hl
  have hon' : onRows.length = 1 := hon
  simp only [List.length_cons, List.length_nil, Nat.zero_add, Nat.add_sub_cancel, setAt]
  rw [List.getElem?_set_self]
  · congr 3
  · simp [hon']

/-- C141 is false of the channel: of an open channel that leaves the lagoon in line with the river, the lagoon on the right is taken to be attached, and
the lagoon on the left is left out (riv.py 391-400). -/
theorem C141_refuted_river [FloorRing K] {pp : PhysPars K} {a : ChanIn K} {c : ChanOut K} (h0 : a.EndX0 = fin 0) (h : assembleChannel pp a = .ok c)
    (ho : c.closed = false)
    (hne : nansum ((a.rows.filter (fun r => decide (0 < r.x))).map (fun r => (r.y3 - r.y4) * fin a.Dx)) ≠
      nansum ((a.rows.filter (fun r => decide (r.x < 0))).map (fun r => (r.y3 - r.y4) * fin a.Dx))) :
    assembleChannel pp (flipIn a) ≠ .ok (flipChan a.rows.length c) := by
  intro h'
  have e1 := river_right h0 h ho
  have e2 := river_right (a := flipIn a) (by show -a.EndX0 = fin 0; rw [h0]; simp) h' ho
  rw [show (flipChan a.rows.length c).lagArea = c.lagArea from rfl, show (flipIn a).RiverElev = a.RiverElev from rfl, e1] at e2
  have e3 := Option.some.inj e2
  apply hne
  rw [e3]
  show nansum (((flipRows a.rows).filter (fun r => decide (0 < r.x))).map (fun r => (r.y3 - r.y4) * fin a.Dx)) = _
  rw [filter_flip (p := fun r : Transect K => decide (r.x < 0)) (fun r => by simp [flipT])]
  unfold flipRows
  rw [List.map_reverse, List.map_map, nansum_reverse]
  rfl

/-- The reach lengths of an open channel: one is longer than the others. -/
theorem open_dx [FloorRing K] {pp : PhysPars K} {a : ChanIn K} {c : ChanOut K} (h : assembleChannel pp a = .ok c) (ho : c.closed = false) :
    c.dx = addAt (List.replicate (a.RiverElev.length + c.online.length + c.outlet.length + 1) (fin a.Dx))
      (a.RiverElev.length + c.online.length + c.outlet.length + 1 - 2)
      (if a.EndX0 <? a.EndX1 then flMod a.EndX1 a.Dx else fin a.Dx - flMod a.EndX1 a.Dx) ∧ c.online ≠ [] := by
  obtain ⟨X0, r0, w, C1, s1, s, onRows, outRows, hA⟩ := assemble_inv h
  have hg := hA.geom
  unfold chanGeom at hg
  rw [ho] at hg
  simp only [Prod.mk.injEq, Bool.false_eq_true, if_false] at hg
  rw [hA.online]
  exact ⟨hg.1, (cut_inv hA.cut).2.choose_spec.2.1⟩

/-- C141 is false of the channel: of an outlet that ends on a transect, the last reach is longer by one spacing if the channel goes to the left
(riv.py 452-455). -/
theorem C141_refuted_end [FloorRing K] {pp : PhysPars K} {a : ChanIn K} {c : ChanOut K} {k : ℤ} (hd : 0 < a.Dx) (h0 : (a.EndX0 <? a.EndX1) = true)
    (h1 : a.EndX1 = fin (k * a.Dx)) (h : assembleChannel pp a = .ok c) (ho : c.closed = false) :
    assembleChannel pp (flipIn a) ≠ .ok (flipChan a.rows.length c) := by
  intro h'
  obtain ⟨e1, hne⟩ := open_dx h ho
  have e2 := (open_dx h' ho).1
  rw [show (flipChan a.rows.length c).dx = c.dx from rfl, e1] at e2
  have hb : ((flipIn a).EndX0 <? (flipIn a).EndX1) = false := by
    show (-a.EndX0 <? -a.EndX1) = false
    rw [neg_blt_neg, h1]
    rw [h1] at h0
    cases hx : a.EndX0 with
    | fin x => rw [hx] at h0; simp at h0 ⊢; exact h0.le
    | nan => rfl
    | ninf => rfl
    | pinf => rw [hx] at h0; cases h0
  have hl : 1 ≤ c.online.length := List.length_pos_iff.mpr hne
  have e3 := congrArg (fun l => l[a.RiverElev.length + c.online.length + c.outlet.length + 1 - 2]?) e2
  simp only [h0, hb, if_true, Bool.false_eq_true, if_false] at e3
  unfold addAt at e3
  simp only [show (flipIn a).RiverElev = a.RiverElev from rfl, show (flipChan a.rows.length c).online.length = c.online.length from by simp [flipChan],
    show (flipChan a.rows.length c).outlet.length = c.outlet.length from by simp [flipChan], show (flipIn a).Dx = a.Dx from rfl,
    show (flipIn a).EndX1 = -a.EndX1 from rfl, List.getElem?_modify_eq] at e3
  rw [List.getElem?_replicate_of_lt (by omega), h1] at e3
  have hm : ∀ j : ℤ, flMod (fin (j * a.Dx)) a.Dx = fin 0 := by
    intro j
    unfold flMod
    simp only [hd.ne', if_false]
    rw [mul_div_assoc, div_self hd.ne', mul_one, Int.floor_intCast, mul_comm, sub_self]
  have hm' : flMod (-fin (k * a.Dx)) a.Dx = fin 0 := by
    have := hm (-k)
    push_cast at this
    rw [neg_mul] at this
    exact this
  rw [hm, hm'] at e3
  simp at e3
  exact hd.ne' e3

/-! ## Channels of the other theorems -/

/-- The channel along the example coast with the outlet at `e0` and `e1`. -/
def miChan (e0 e1 : Fl ℚ) (C : Bool) : Except PyErr (ChanOut ℚ) := assembleChannel moPP { firstChan coLoad 10 with EndX0 := e0, EndX1 := e1, Closed := C }

/-- Closed without an end of the outlet: the channel has five transects, all left of the river or in line with it. -/
example : okAnd (miChan nan nan true) (fun c => decide (c.online = [4, 3, 2, 1, 0])) = true := by decide +kernel

/-- A lagoon that is wider on the right. -/
def miWide : List (Transect ℚ) :=
  coLoad.rows.map (fun r => { r with y1 := fin 60, y2 := fin 55, z1 := fin 0, z2 := fin 3, y3 := if r.x < 0 then fin 10 else fin 20 })

/-- An outlet in line with the river: 400 of lagoon on the left, 800 on the right. -/
example : okAnd (assembleChannel moPP { firstChan { coLoad with rows := miWide } 10 with EndX0 := fin 0, EndX1 := fin 24 }) (fun c => decide (c.closed = false) &&
    decide (nansum ((miWide.filter (fun r => decide (0 < r.x))).map (fun r => (r.y3 - r.y4) * fin 10)) = fin 800) &&
    decide (nansum ((miWide.filter (fun r => decide (r.x < 0))).map (fun r => (r.y3 - r.y4) * fin 10)) = fin 400)) = true := by decide +kernel

/-- An outlet that ends on a transect. -/
example : okAnd (miChan (fin 15) (fin 20) false) (fun c => decide (c.closed = false ∧ (20 : ℚ) = ((2 : ℤ) : ℚ) * 10)) = true := by decide +kernel

end Verif.Props
