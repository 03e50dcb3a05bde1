import Verif.Lemmas.FillLast
import Verif.Props.Figures
import Verif.Props.CoreSample

set_option autoImplicit false
set_option linter.unusedSectionVars false

/-! # C111: the long section of a record and a hot start from the same record -/

namespace Verif.Props
open Verif Verif.Model Verif.Spec Fl

variable {K : Type} [Field K] [LinearOrder K] [IsStrictOrderedRing K] [FloorRing K]

/-- Claim C111 in full: the channel drawn for a record is the channel a run started from that record begins with. -/
def C111 (K : Type) [Field K] [LinearOrder K] [IsStrictOrderedRing K] [FloorRing K] : Prop :=
  ∀ (root : Fl K → Fl K) (g : K) (pp : PhysPars K) (f : NcFile K) (i : ℕ) (t a : ℤ) (Dx : K) (ld : LoadOut K) (c : ChanOut K),
    closestTimeIx f.times t = .ok ([i], a) → hotStart f t Dx = .ok (ld, a) → ld.RiverWL.length = ld.RiverElev.length →
    ld.RiverVel.length = ld.RiverElev.length → assembleChannel pp (firstChan ld Dx) = .ok c → AllFin c.width → AllFin c.dep → AllFin c.vel →
    ∃ S, animateLongSec root g pp f i = .ok (c, S)

theorem zipRows_x {xs : List K} {y0 y1 y2 y3 y4 z0 z1 z2 z3 : List (Fl K)} {rows : List (Transect K)}
    (h : zipRows xs y0 y1 y2 y3 y4 z0 z1 z2 z3 = .ok rows) : rows.map (·.x) = xs := by
  unfold zipRows at h
  have key : ∀ (n : ℕ) (rows : List (Transect K)), (List.range n).mapM (fun i => do
      return ({ x := ← ixGet xs i, y0 := ← ixGet y0 i, y1 := ← ixGet y1 i, y2 := ← ixGet y2 i, y3 := ← ixGet y3 i,
                y4 := ← ixGet y4 i, z0 := ← ixGet z0 i, z1 := ← ixGet z1 i, z2 := ← ixGet z2 i, z3 := ← ixGet z3 i } : Transect K)) = .ok rows →
      rows.map (·.x) = xs.take n := by
    intro n
    induction n with
    | zero => intro rows h; cases h; simp
    | succ n ih =>
      intro rows h
      rw [List.range_succ, List.mapM_append] at h
      obtain ⟨l1, h1, h⟩ := bind_ok.mp h
      obtain ⟨l2, h2, h⟩ := bind_ok.mp h
      cases h
      rw [List.mapM_cons] at h2
      obtain ⟨t, ht, h2⟩ := bind_ok.mp h2
      cases h2
      simp only [bind_ok, pure_ok, ixGet_ok] at ht
      obtain ⟨x, hx, ht⟩ := ht
      repeat' (obtain ⟨_, _, ht⟩ := ht)
      rw [List.map_append, ih l1 h1, List.take_succ, hx]
      rfl
  rw [key _ _ h, List.take_length]

theorem read_x {f : NcFile K} {i : ℕ} {r : ReadOut K} (h : readTimestep f i = .ok r) : r.rows.map (·.x) = f.x := by
  unfold readTimestep at h
  simp only [bind_ok] at h
  obtain ⟨_, _, _, _, _, _, _, _, _, _, _, _, _, _, _, _, _, _, _, _, _, _, _, _, _, _, _, _, _, _, _, _, _, _, _, _, rows, h, hh⟩ := h
  have := zipRows_x h
  repeat' (obtain ⟨_, _, hh⟩ := hh)
  exact this

theorem frame_inv {root : Fl K → Fl K} {g : K} {pp : PhysPars K} {f : NcFile K} {i : ℕ} {c : ChanOut K} {S : LongSec K} {r : ReadOut K}
    {t0 t1 : Transect K} (h : animateLongSec root g pp f i = .ok (c, S)) (hr : readTimestep f i = .ok r) (ht0 : r.rows[0]? = some t0)
    (ht1 : r.rows[1]? = some t1) : assembleChannel pp (frameChan (t1.x - t0.x) r) = .ok c := by
  unfold animateLongSec at h
  rw [readStep_nat, hr] at h
  obtain ⟨_, hz, h⟩ := bind_ok.mp h
  cases hz
  obtain ⟨t0', h0, h⟩ := bind_ok.mp h
  obtain ⟨t1', h1, h⟩ := bind_ok.mp h
  rw [ixGet_ok] at h0 h1
  rw [ht0] at h0; cases h0
  rw [ht1] at h1; cases h1
  obtain ⟨c', hc', h⟩ := bind_ok.mp h
  obtain ⟨_, _, h⟩ := bind_ok.mp h
  cases h
  exact hc'

/-- What a hot start takes from the record it reads. -/
theorem hotStart_inv {f : NcFile K} {t a : ℤ} {Dx : K} {ld : LoadOut K} {i : ℕ} (hc : closestTimeIx f.times t = .ok ([i], a))
    (h : hotStart f t Dx = .ok (ld, a)) : ∃ r t0 t1, readTimestep f i = .ok r ∧ r.rows[0]? = some t0 ∧ r.rows[1]? = some t1 ∧ t1.x - t0.x = Dx ∧
      ld.EndDep = [r.EndWL - r.EndElev, r.DummyDep] ∧ ld.EndVel = [r.EndVel, r.DummyVel] ∧ ld.RiverWL = r.RiverWL ∧
      ld.RiverElev = r.RiverElev ∧ ld.RiverVel = r.RiverVel ∧
      frameChan Dx r = { firstChan ld Dx with EndDep := [r.EndWL - r.EndElev], EndVel := [r.EndVel] } := by
  unfold hotStart at h
  rw [hc] at h
  obtain ⟨_, hz, h⟩ := bind_ok.mp h
  cases hz
  obtain ⟨r, hr, h⟩ := bind_ok.mp h
  obtain ⟨x0, h0, h⟩ := bind_ok.mp h
  obtain ⟨x1, h1, h⟩ := bind_ok.mp h
  obtain ⟨_, h2, hend⟩ := bind_ok.mp h
  have hx := read_x (show readTimestep f i = .ok r from hr)
  rw [ixGet_ok] at h0 h1
  rw [← hx, List.getElem?_map] at h0 h1
  obtain ⟨t0, ht0, rfl⟩ := Option.map_eq_some_iff.mp h0
  obtain ⟨t1, ht1, rfl⟩ := Option.map_eq_some_iff.mp h1
  rw [pyAssert_ok, decide_eq_true_eq] at h2
  cases hend
  exact ⟨r, t0, t1, hr, ht0, ht1, h2, rfl, rfl, rfl, rfl, rfl, rfl⟩

/-- C111, partial: the channel drawn for a record is the one a hot start begins with, except that in an open channel the dummy section beyond
the outlet end is drawn with the depth and velocity of the outlet end instead of its own recorded ones.  Missing: the recorded values
of the dummy section, which are not passed on (`C111_refuted`); an outlet end without water (`C111_dry`). -/
theorem C111_partial (root : Fl K → Fl K) (g : K) {pp : PhysPars K} {f : NcFile K} {i : ℕ} {t a : ℤ} {Dx : K} {ld : LoadOut K} {c : ChanOut K}
    (hc : closestTimeIx f.times t = .ok ([i], a)) (h : hotStart f t Dx = .ok (ld, a)) (hw : ld.RiverWL.length = ld.RiverElev.length)
    (hv : ld.RiverVel.length = ld.RiverElev.length) {d v : K} {x y : Fl K} (hed : ld.EndDep = [fin d, x]) (hev : ld.EndVel = [fin v, y]) (hd : d ≠ 0)
    (ha : assembleChannel pp (firstChan ld Dx) = .ok c) (f1 : AllFin c.width) (f2 : AllFin c.dep) (f3 : AllFin c.vel) :
    ∃ c' S, animateLongSec root g pp f i = .ok (c', S) ∧ c'.dx = c.dx ∧ c'.elev = c.elev ∧ c'.width = c.width ∧ c'.lagArea = c.lagArea ∧
      c'.lagLen = c.lagLen ∧ c'.flag = c.flag ∧ c'.online = c.online ∧ c'.outlet = c.outlet ∧ c'.closed = c.closed ∧
      (c.closed = true → c'.dep = c.dep ∧ c'.vel = c.vel) ∧
      (c.closed = false → c'.dep = c.dep.dropLast ++ [fin d] ∧ c'.vel = c.vel.dropLast ++ [fin v]) := by
  obtain ⟨r, t0, t1, hr, ht0, ht1, hdx, k1, k2, k3, k4, k5, k6⟩ := hotStart_inv hc h
  rw [hed] at k1
  rw [hev] at k2
  simp only [List.cons.injEq] at k1 k2
  rw [← k1.1, ← k2.1] at k6
  have hrl : (firstChan ld Dx).RivDep.length = ld.RiverElev.length := by
    change (List.zipWith _ ld.RiverWL ld.RiverElev).length = _
    simp [hw]
  have hA := assemble_noDummy (hrl.trans hv.symm) hed hev hd ha
  rw [← k6] at hA
  generalize hc' : (if c.closed = true then c else { c with dep := c.dep.dropLast ++ [fin d], vel := c.vel.dropLast ++ [fin v] }) = c' at hA
  have hk : c'.dx = c.dx ∧ c'.elev = c.elev ∧ c'.width = c.width ∧ c'.lagArea = c.lagArea ∧
      c'.lagLen = c.lagLen ∧ c'.flag = c.flag ∧ c'.online = c.online ∧ c'.outlet = c.outlet ∧ c'.closed = c.closed ∧
      (c.closed = true → c'.dep = c.dep ∧ c'.vel = c.vel) ∧
      (c.closed = false → c'.dep = c.dep.dropLast ++ [fin d] ∧ c'.vel = c.vel.dropLast ++ [fin v]) := by
    subst hc'
    cases hcl : c.closed <;> simp
    exact hcl
  obtain ⟨e1, e2, e3, e4, e5, e6, e7, e8, e9, e10, e11⟩ := hk
  have hrl' : (frameChan Dx r).RivDep.length = (frameChan Dx r).RiverElev.length := by rw [k6]; exact hrl
  have hvl' : (frameChan Dx r).RivVel.length = (frameChan Dx r).RiverElev.length := by rw [k6]; exact hv
  have hok := assemble_ok hA hrl' hvl' (.inl rfl) (.inl rfl)
  have hlen := hok.len
  have hcount := hok.count
  have hne := List.length_pos_iff.mpr hok.ne
  have q1 := hlen.elev
  have q2 := hlen.width
  have q3 := hlen.dx
  have q4 := hlen.dep
  have q5 := hlen.vel
  have g2 : AllFin c'.dep := by
    cases hcl : c.closed with
    | true => rw [(e10 hcl).1]; exact f2
    | false =>
      rw [(e11 hcl).1]
      intro z hz
      rcases List.mem_append.mp hz with hz | hz
      · exact f2 z (List.dropLast_subset _ hz)
      · exact ⟨d, List.mem_singleton.mp hz⟩
  have g3 : AllFin c'.vel := by
    cases hcl : c.closed with
    | true => rw [(e10 hcl).2]; exact f3
    | false =>
      rw [(e11 hcl).2]
      intro z hz
      rcases List.mem_append.mp hz with hz | hz
      · exact f3 z (List.dropLast_subset _ hz)
      · exact ⟨v, List.mem_singleton.mp hz⟩
  obtain ⟨S, hS⟩ := longSection_total (load := none) root g (dx := c'.dx) (elev := c'.elev) (width := c'.width) (dep := c'.dep) (vel := c'.vel)
    (by omega) (by omega) (by omega) (by omega) (by rw [e3]; exact f1) g2 g3 (fun b hb => by cases hb)
  refine ⟨c', S, ?_, e1, e2, e3, e4, e5, e6, e7, e8, e9, e10, e11⟩
  unfold animateLongSec
  rw [readStep_nat]
  exact bind_ok.mpr ⟨r, hr, bind_ok.mpr ⟨t0, ixGet_ok.mpr ht0, bind_ok.mpr ⟨t1, ixGet_ok.mpr ht1, bind_ok.mpr ⟨c', by rw [hdx]; exact hA,
    bind_ok.mpr ⟨S, hS, rfl⟩⟩⟩⟩⟩

/-- C111 refuted, in general: the values recorded for the dummy section are never drawn. -/
theorem C111_refuted_general (root : Fl K → Fl K) (g : K) {pp : PhysPars K} {f : NcFile K} {i : ℕ} {t a : ℤ} {Dx : K} {ld : LoadOut K} {c : ChanOut K}
    (hc : closestTimeIx f.times t = .ok ([i], a)) (h : hotStart f t Dx = .ok (ld, a)) (hw : ld.RiverWL.length = ld.RiverElev.length)
    (hv : ld.RiverVel.length = ld.RiverElev.length) {d v : K} {x y : Fl K} (hed : ld.EndDep = [fin d, x]) (hev : ld.EndVel = [fin v, y]) (hd : d ≠ 0)
    (ha : assembleChannel pp (firstChan ld Dx) = .ok c) (hop : c.closed = false) (hne : c.dep.getLast? ≠ some (fin d)) :
    ∀ S, animateLongSec root g pp f i ≠ .ok (c, S) := by
  intro S hS
  obtain ⟨r, t0, t1, hr, ht0, ht1, hdx, k1, k2, k3, k4, k5, k6⟩ := hotStart_inv hc h
  rw [hed] at k1
  rw [hev] at k2
  simp only [List.cons.injEq] at k1 k2
  rw [← k1.1, ← k2.1] at k6
  have hrl : (firstChan ld Dx).RivDep.length = ld.RiverElev.length := by
    change (List.zipWith _ ld.RiverWL ld.RiverElev).length = _
    simp [hw]
  have hA := assemble_noDummy (hrl.trans hv.symm) hed hev hd ha
  rw [← k6, if_neg (by rw [hop]; simp)] at hA
  have hc' := frame_inv hS hr ht0 ht1
  rw [hdx, hA] at hc'
  have := congrArg ChanOut.dep (Except.ok.inj hc')
  apply hne
  rw [← this, List.getLast?_append]
  rfl

/-- C111: with no water at an open outlet end the frame cannot be drawn, whatever is recorded for the dummy section. -/
theorem C111_dry (root : Fl K → Fl K) (g : K) {pp : PhysPars K} {f : NcFile K} {i : ℕ} {t a : ℤ} {Dx : K} {ld : LoadOut K}
    (hc : closestTimeIx f.times t = .ok ([i], a)) (h : hotStart f t Dx = .ok (ld, a)) (hw : ld.RiverWL.length = ld.RiverElev.length)
    (hv : ld.RiverVel.length = ld.RiverElev.length) {v x y : Fl K} (hed : ld.EndDep = [fin 0, x]) (hev : ld.EndVel = [v, y]) (hn : v.isnan = false)
    {c : ChanOut K} {S : LongSec K} (hS : animateLongSec root g pp f i = .ok (c, S)) : c.closed = true := by
  obtain ⟨r, t0, t1, hr, ht0, ht1, hdx, k1, k2, k3, k4, k5, k6⟩ := hotStart_inv hc h
  rw [hed] at k1
  rw [hev] at k2
  simp only [List.cons.injEq] at k1 k2
  have hc' := frame_inv hS hr ht0 ht1
  rw [hdx] at hc'
  refine assemble_dry ?_ ?_ ?_ hn hc'
  · change (List.zipWith _ r.RiverWL r.RiverElev).length = r.RiverVel.length
    rw [← k3, ← k4, ← k5]
    simp [hw, hv]
  · change [r.EndWL - r.EndElev] = _
    rw [← k1.1]
  · change [r.EndVel] = _
    rw [← k2.1]

/-- C111: the three parameters kept in the output file are enough to draw the channel. -/
theorem C111_pars {pp pp' : PhysPars K} (h1 : pp.RiverWidth = pp'.RiverWidth) (h2 : pp.MinOutletWidth = pp'.MinOutletWidth)
    (h3 : pp.MaxOutletElev = pp'.MaxOutletElev) (root : Fl K → Fl K) (g : K) (f : NcFile K) (i : ℤ) :
    animateLongSec root g pp f i = animateLongSec root g pp' f i := by
  have hA : ∀ a : ChanIn K, assembleChannel pp a = assembleChannel pp' a := by
    intro a
    have e1 : outletStage pp a = outletStage pp' a := by unfold outletStage; rw [h2]
    have e2 : ∀ s C, cutStage pp a s C = cutStage pp' a s C := by intro s C; unfold cutStage; simp only [h2]
    have e3 : ∀ s C o w r1 r2, chanGeom pp a s C o w r1 r2 = chanGeom pp' a s C o w r1 r2 := by
      intro s C o w r1 r2; unfold chanGeom; simp only [h1, h3]
    unfold assembleChannel
    simp only [e1, e2, e3]
  unfold animateLongSec
  simp only [hA]

/-- A record of the sample coast with water twice as deep in the dummy section (`d`: depth at the outlet end). -/
def lsSnap (d : ℚ) : Snapshot ℚ :=
  { ouSnap 0 with
    rows := coLoad.rows, LagoonWL := coLoad.LagoonWL, LagoonVel := List.replicate 9 (fin 1), LagoonBedload := List.replicate 9 (fin 0),
    OutletDep := coLoad.OutletDep, OutletVel := List.replicate 9 (fin 1), OutletBedload := List.replicate 9 (fin 0), LST := List.replicate 8 (fin 0),
    CST := List.replicate 9 (fin 0), OverwashProp := List.replicate 9 (fin 0), RiverElev := coLoad.RiverElev, RiverDep := [fin 1, fin 1],
    RiverVel := [fin 1, fin 1], RiverBedload := [fin 0, fin 0], EndX0 := fin 15, EndX1 := fin 24, EndWidth := fin 6, EndElev := fin (-1),
    EndDep := [fin d, fin 2], EndVel := [fin 1, fin (1 / 2)] }

def lsFile (d : ℚ) : Except PyErr (NcFile ℚ) := writeCurrent exact (emptyFile exact (coLoad.rows.map (·.x)) coLoad.RiverElev) (lsSnap d)

def isNum : Fl ℚ → Bool
  | fin _ => true
  | _ => false

theorem allFin_of {l : List (Fl ℚ)} (h : l.all isNum = true) : AllFin l := by
  intro x hx
  have := List.all_eq_true.mp h x hx
  cases x with
  | fin v => exact ⟨v, rfl⟩
  | _ => exact Bool.noConfusion this

theorem lsFile_start {d : ℚ} (hd : d = 1 ∨ d = 0) : ∃ f ld c, lsFile d = .ok f ∧ closestTimeIx f.times 0 = .ok ([0], 0) ∧ hotStart f 0 10 = .ok (ld, 0) ∧
    ld.RiverWL.length = ld.RiverElev.length ∧ ld.RiverVel.length = ld.RiverElev.length ∧ ld.EndDep = [fin d, fin 2] ∧ ld.EndVel = [fin 1, fin (1 / 2)] ∧
    assembleChannel moPP (firstChan ld 10) = .ok c ∧ c.closed = false ∧ c.dep.getLast? = some (fin 2) ∧
    c.width.all isNum = true ∧ c.dep.all isNum = true ∧ c.vel.all isNum = true := by
  have key : ∀ d ∈ [(1 : ℚ), 0], okAnd (lsFile d) (fun f => okAnd (closestTimeIx f.times 0) (fun z => decide (z = ([0], 0)) &&
      okAnd (hotStart f 0 10) (fun l => decide (l.2 = 0 ∧ l.1.RiverWL.length = l.1.RiverElev.length ∧ l.1.RiverVel.length = l.1.RiverElev.length ∧
        l.1.EndDep = [fin d, fin 2] ∧ l.1.EndVel = [fin 1, fin (1 / 2)]) && okAnd (assembleChannel moPP (firstChan l.1 10)) (fun c =>
        decide (c.closed = false ∧ c.dep.getLast? = some (fin 2) ∧ c.width.all isNum = true ∧ c.dep.all isNum = true ∧
          c.vel.all isNum = true))))) = true := by decide +kernel
  have h := key d (by simpa using hd)
  obtain ⟨f, hf, h⟩ := okAnd_iff.mp h
  obtain ⟨z, hz, h⟩ := okAnd_iff.mp h
  rw [Bool.and_eq_true, decide_eq_true_eq] at h
  obtain ⟨rfl, h⟩ := h
  obtain ⟨⟨ld, a⟩, hl, h⟩ := okAnd_iff.mp h
  rw [Bool.and_eq_true, decide_eq_true_eq] at h
  obtain ⟨⟨rfl, k1, k2, k3, k4⟩, h⟩ := h
  obtain ⟨c, hc, h⟩ := okAnd_iff.mp h
  exact ⟨f, ld, c, hf, hz, hl, k1, k2, k3, k4, hc, of_decide_eq_true h⟩

/-- C111 refuted: a depth of 2 m is recorded in the dummy section, 1 m is drawn. -/
theorem C111_refuted : ¬ C111 ℚ := by
  intro h
  obtain ⟨f, ld, c, _, hz, hl, k1, k2, k3, k4, hc, hop, hlast, f1, f2, f3⟩ := lsFile_start (.inl rfl)
  obtain ⟨S, hS⟩ := h (fun _ => fin 1) 10 moPP f 0 0 0 10 ld c hz hl k1 k2 hc (allFin_of f1) (allFin_of f2) (allFin_of f3)
  exact C111_refuted_general (fun _ => fin 1) 10 hz hl k1 k2 k3 k4 one_ne_zero hc hop (by rw [hlast]; decide) S hS

/-- The hypotheses of `C111_partial` are met by the record above. -/
example : ∃ f c' S, lsFile 1 = .ok f ∧ animateLongSec (fun _ => fin 1) 10 moPP f (0 : ℕ) = .ok (c', S) ∧ c'.closed = false := by
  obtain ⟨f, ld, c, hf, hz, hl, k1, k2, k3, k4, hc, hop, hlast, f1, f2, f3⟩ := lsFile_start (.inl rfl)
  obtain ⟨c', S, h, _, _, _, _, _, _, _, _, e, _⟩ := C111_partial (fun _ => fin 1) 10 hz hl k1 k2 k3 k4 one_ne_zero hc (allFin_of f1) (allFin_of f2) (allFin_of f3)
  exact ⟨f, c', S, hf, h, e.trans hop⟩

/-- A run can be started from a record with a dry outlet end, which cannot be drawn. -/
example : ∃ f ld c, lsFile 0 = .ok f ∧ hotStart f 0 10 = .ok (ld, 0) ∧ assembleChannel moPP (firstChan ld 10) = .ok c ∧ c.closed = false ∧
    animateLongSec (fun _ => fin 1) 10 moPP f (0 : ℕ) = .error .assertion := by
  obtain ⟨f, ld, c, hf, hz, hl, k1, k2, k3, k4, hc, hop, _⟩ := lsFile_start (.inr rfl)
  refine ⟨f, ld, c, hf, hl, hc, hop, ?_⟩
  have h : (match lsFile 0 with
    | .ok f => decide (animateLongSec (fun _ => fin 1) 10 moPP f (0 : ℕ) matches .error .assertion)
    | .error _ => false) = true := by decide +kernel
  rw [hf] at h
  simp only [decide_eq_true_eq] at h
  split at h
  · assumption
  · cases h

end Verif.Props
