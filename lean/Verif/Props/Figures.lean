import Verif.Lemmas.Figures
import Verif.Lemmas.Sizes
import Verif.Lemmas.View
import Verif.Model.RealFn
import Verif.Props.Core
import Verif.Props.Out

set_option autoImplicit false
set_option linter.unusedSectionVars false

/-! # C105-C110: transect figure, long section and animations -/

namespace Verif.Props
open Verif Verif.Model Verif.Spec Fl

variable {K : Type} [Field K] [LinearOrder K] [IsStrictOrderedRing K]

/-! ## C105: the transect figure shows the transect closest to the requested position -/

theorem newTransect_inv {q : TransPars K} {rows : List (Transect K)} {lw ow : List (Fl K)} {sea : Fl K} {X : K} {ix : ℕ} {t : TransFig K}
    (h : newTransectFig q rows lw ow sea X = .ok (ix, t)) :
    transectIx (rows.map (·.x)) X = .ok ix ∧ updateTransectFig q ix rows lw ow sea = .ok t := by
  unfold newTransectFig at h
  simp only [bind_ok, pure_ok, Prod.mk.injEq] at h
  obtain ⟨i, h1, t', h2, rfl, rfl⟩ := h
  exact ⟨h1, h2⟩

theorem updateTransect_inv {q : TransPars K} {rows : List (Transect K)} {lw ow : List (Fl K)} {sea : Fl K} {ix : ℕ} {t : TransFig K}
    (h : updateTransectFig q ix rows lw ow sea = .ok t) :
    ∃ r l o, rows[ix]? = some r ∧ lw[ix]? = some l ∧ ow[ix]? = some o ∧ t.ground = groundLine q r ∧ t.water = waterLine r l o sea ∧
      fillDown t.ground = .ok t.groundFill ∧ fillDown t.water = .ok t.waterFill := by
  unfold updateTransectFig at h
  simp only [bind_ok, pure_ok, ixGet_ok] at h
  obtain ⟨r, h1, l, h2, o, h3, gf, h4, wf, h5, rfl⟩ := h
  exact ⟨r, l, o, h1, h2, h3, rfl, rfl, h4, h5⟩

theorem transectIx_ok {xs : List K} {X : K} {ix : ℕ} (h : transectIx xs X = .ok ix) : ∃ x, xs[ix]? = some x ∧ ∀ y ∈ xs, |x - X| ≤ |y - X| := by
  unfold transectIx at h
  simp only [bind_ok] at h
  obtain ⟨_, _, _, _, _, _, h⟩ := h
  obtain ⟨v, hv, hm⟩ := argminK_ok h
  rw [List.getElem?_map] at hv
  cases hx : xs[ix]? with
  | none => rw [hx] at hv; cases hv
  | some x =>
    rw [hx] at hv
    simp only [Option.map_some, Option.some.injEq] at hv
    subst hv
    exact ⟨x, rfl, fun y hy => hm _ (List.mem_map.mpr ⟨y, hy, rfl⟩)⟩

/-- C105: no transect is closer to the requested position than the one shown. -/
theorem C105_closest {q : TransPars K} {rows : List (Transect K)} {lw ow : List (Fl K)} {sea : Fl K} {X : K} {ix : ℕ} {t : TransFig K}
    (h : newTransectFig q rows lw ow sea X = .ok (ix, t)) : ∃ r, rows[ix]? = some r ∧ ∀ s ∈ rows, |r.x - X| ≤ |s.x - X| := by
  obtain ⟨x, hx, hm⟩ := transectIx_ok (newTransect_inv h).1
  rw [List.getElem?_map] at hx
  cases hr : rows[ix]? with
  | none => rw [hr] at hx; cases hx
  | some r =>
    rw [hr] at hx
    simp only [Option.map_some, Option.some.injEq] at hx
    subst hx
    exact ⟨r, rfl, fun s hs => hm _ (List.mem_map.mpr ⟨s, hs, rfl⟩)⟩

/-- C105: a position outside the model is refused, and every position inside is accepted. -/
theorem C105_range {q : TransPars K} {rows : List (Transect K)} {lw ow : List (Fl K)} {sea : Fl K} {X : K} {a b : Transect K}
    (ha : rows.head? = some a) (hb : rows.getLast? = some b) (hl : lw.length = rows.length) (ho : ow.length = rows.length) :
    (¬ (a.x ≤ X ∧ X ≤ b.x) → newTransectFig q rows lw ow sea X = .error .assertion) ∧
    (a.x ≤ X ∧ X ≤ b.x → ∃ ix t, newTransectFig q rows lw ow sea X = .ok (ix, t)) := by
  have h0 : pyGet (rows.map (·.x)) 0 = .ok a.x := pyGet_zero_ok.mpr (by rw [List.getElem?_map, ← List.head?_eq_getElem?, ha]; rfl)
  have h1 : pyGet (rows.map (·.x)) (-1) = .ok b.x := pyGet_last.mpr (by rw [List.getLast?_map, hb]; rfl)
  constructor
  · intro hn
    have : (decide (a.x ≤ X) && decide (X ≤ b.x)) = false := by simpa using hn
    unfold newTransectFig transectIx
    rw [h0, h1]
    change ((do pyAssert (decide (a.x ≤ X) && decide (X ≤ b.x)); _) >>= _) = _
    rw [this]
    rfl
  · intro hn
    have : (decide (a.x ≤ X) && decide (X ≤ b.x)) = true := by simpa using hn
    have hne : rows ≠ [] := by rintro rfl; cases ha
    obtain ⟨ix, hix⟩ := argminK_total (d := (rows.map (·.x)).map (fun x => |x - X|)) (by simpa using hne)
    have htr : transectIx (rows.map (·.x)) X = .ok ix :=
      bind_ok.mpr ⟨_, h0, bind_ok.mpr ⟨_, h1, bind_ok.mpr ⟨(), pyAssert_ok.mpr this, hix⟩⟩⟩
    obtain ⟨v, hv, _⟩ := argminK_ok hix
    have hlt : ix < rows.length := by
      have := (List.getElem?_eq_some_iff.mp hv).1
      simpa using this
    have e1 : rows[ix]? = some rows[ix] := List.getElem?_eq_getElem hlt
    have e2 : lw[ix]? = some (lw[ix]'(by omega)) := List.getElem?_eq_getElem _
    have e3 : ow[ix]? = some (ow[ix]'(by omega)) := List.getElem?_eq_getElem _
    obtain ⟨gf, e4⟩ := fillDown_total (l := groundLine q rows[ix]) (by simp [groundLine]) (ground_paired _ _)
    obtain ⟨wf, e5⟩ := fillDown_total (l := waterLine rows[ix] (lw[ix]'(by omega)) (ow[ix]'(by omega)) sea) (by simp [waterLine]) (water_paired _ _ _ _)
    exact ⟨ix, _, bind_ok.mpr ⟨ix, htr, bind_ok.mpr ⟨_, bind_ok.mpr ⟨_, ixGet_ok.mpr e1, bind_ok.mpr ⟨_, ixGet_ok.mpr e2, bind_ok.mpr ⟨_, ixGet_ok.mpr e3,
      bind_ok.mpr ⟨gf, e4, bind_ok.mpr ⟨wf, e5, rfl⟩⟩⟩⟩⟩, rfl⟩⟩⟩

/-- C105: the figure shows that transect: the barrier between shoreline and lagoon, the outlet channel if there is one, the lagoon if it has a
width, each at its level, and water at sea level, outlet level and lagoon level in the respective places. -/
theorem C105_levels {q : TransPars K} {rows : List (Transect K)} {lw ow : List (Fl K)} {sea : Fl K} {ix : ℕ} {t : TransFig K}
    (h : updateTransectFig q ix rows lw ow sea = .ok t) :
    ∃ r l o, rows[ix]? = some r ∧ lw[ix]? = some l ∧ ow[ix]? = some o ∧
      Flat t.water (fin 1000) r.y0 sea ∧
      (r.y2.isnan = true → Flat t.ground r.y0 r.y3 r.z0) ∧
      (r.y2.isnan = false → Flat t.ground r.y0 r.y1 r.z0 ∧ Flat t.ground r.y1 r.y2 r.z1 ∧ Flat t.ground r.y2 r.y3 r.z2 ∧ Flat t.water r.y1 r.y2 o) ∧
      ((r.y3 ==? r.y4) = false → Flat t.ground r.y3 r.y4 r.z3 ∧ Flat t.water r.y3 r.y4 l) ∧
      Flat t.ground r.y4 (fin (-1000)) (fin q.BackshoreElev) ∧
      Flat t.ground (fin 1000) (r.y0 + fin (q.BeachTopElev + q.ClosureDepth) / fin q.BeachSlope) (fin (-q.ClosureDepth)) := by
  obtain ⟨r, l, o, h1, h2, h3, hg, hw, _⟩ := updateTransect_inv h
  refine ⟨r, l, o, h1, h2, h3, ?_⟩
  rw [hg, hw]
  unfold Flat pts groundLine waterLine
  dsimp only
  cases hc : r.y2.isnan with
  | true =>
    cases he : (r.y3 ==? r.y4) with
    | true => exact ⟨⟨0, rfl, rfl⟩, fun _ => ⟨3, rfl, rfl⟩, fun h => Bool.noConfusion h, fun h => Bool.noConfusion h, ⟨5, rfl, rfl⟩, ⟨0, rfl, rfl⟩⟩
    | false => exact ⟨⟨0, rfl, rfl⟩, fun _ => ⟨3, rfl, rfl⟩, fun h => Bool.noConfusion h, fun _ => ⟨⟨5, rfl, rfl⟩, ⟨2, rfl, rfl⟩⟩, ⟨7, rfl, rfl⟩, ⟨0, rfl, rfl⟩⟩
  | false =>
    cases he : (r.y3 ==? r.y4) with
    | true => exact ⟨⟨0, rfl, rfl⟩, fun h => Bool.noConfusion h, fun _ => ⟨⟨3, rfl, rfl⟩, ⟨5, rfl, rfl⟩, ⟨7, rfl, rfl⟩, ⟨2, rfl, rfl⟩⟩, fun h => Bool.noConfusion h,
        ⟨9, rfl, rfl⟩, ⟨0, rfl, rfl⟩⟩
    | false => exact ⟨⟨0, rfl, rfl⟩, fun h => Bool.noConfusion h, fun _ => ⟨⟨3, rfl, rfl⟩, ⟨5, rfl, rfl⟩, ⟨7, rfl, rfl⟩, ⟨2, rfl, rfl⟩⟩,
        fun _ => ⟨⟨9, rfl, rfl⟩, ⟨4, rfl, rfl⟩⟩, ⟨11, rfl, rfl⟩, ⟨0, rfl, rfl⟩⟩

/-- C105: both lines can be drawn, and both filled areas are closed polygons. -/
theorem C105_drawable {q : TransPars K} {rows : List (Transect K)} {lw ow : List (Fl K)} {sea : Fl K} {ix : ℕ} {t : TransFig K}
    (h : updateTransectFig q ix rows lw ow sea = .ok t) :
    Paired t.ground ∧ Paired t.water ∧ Paired t.groundFill ∧ ClosedPoly t.groundFill ∧ Paired t.waterFill ∧ ClosedPoly t.waterFill := by
  obtain ⟨r, l, o, _, _, _, hg, hw, h4, h5⟩ := updateTransect_inv h
  have p1 : Paired t.ground := by rw [hg]; exact ground_paired _ _
  have p2 : Paired t.water := by rw [hw]; exact water_paired _ _ _ _
  exact ⟨p1, p2, (fillDown_closed h4 p1).1, (fillDown_closed h4 p1).2, (fillDown_closed h5 p2).1, (fillDown_closed h5 p2).2⟩

/-- Beach slope 1:8, backshore at 10, closure depth 8, beach top at 4. -/
def trPars : TransPars ℚ := { BeachSlope := 1 / 8, BackshoreElev := 10, ClosureDepth := 8, BeachTopElev := 4 }

/-- Position 17 lies between the transects at 10 and 20; the one at 20, which the outlet crosses, is shown. -/
example : ∃ t, newTransectFig trPars coLoad.rows coLoad.LagoonWL (List.replicate 9 (fin 1)) (fin 0) 17 = .ok (6, t) ∧
    ∃ r, coLoad.rows[6]? = some r ∧ r.x = 20 ∧ r.y2.isnan = false ∧ (r.y3 ==? r.y4) = false := by
  have h : okAnd (newTransectFig trPars coLoad.rows coLoad.LagoonWL (List.replicate 9 (fin 1)) (fin 0) 17) (fun p => decide (p.1 = 6)) = true := by decide +kernel
  obtain ⟨⟨i, t⟩, h1, h2⟩ := okAnd_iff.mp h
  have := of_decide_eq_true h2
  dsimp only at this
  subst this
  exact ⟨t, h1, { brRow 20 with y1 := fin 60, y2 := fin 55, z1 := fin 0, z2 := fin 3 }, by decide +kernel, by decide +kernel, by decide +kernel, by decide +kernel⟩

/-! ## C106: the ground line runs from the sea to the land -/

/-- Claim C106 in full: for a transect whose edges are in order the ground line never turns back. -/
def C106 (K : Type) [Field K] [LinearOrder K] [IsStrictOrderedRing K] : Prop :=
  ∀ (q : TransPars K) (rows : List (Transect K)) (lw ow : List (Fl K)) (sea : Fl K) (ix : ℕ) (r : Transect K) (t : TransFig K),
    0 < q.BeachSlope → 0 ≤ q.BeachTopElev + q.ClosureDepth → rows[ix]? = some r → Ordered r →
    updateTransectFig q ix rows lw ow sea = .ok t → Landward t.ground

/-- The toe of the beach of a transect. -/
def toe (q : TransPars K) (c : K) : K := c + (q.BeachTopElev + q.ClosureDepth) / q.BeachSlope

/-- C106, partial: it holds if the toe of the beach is not further seaward than 1000 and the cliff not further landward than -1000.  Missing:
the other transects, for which it fails (`C106_refuted_general`). -/
theorem C106_partial {q : TransPars K} {rows : List (Transect K)} {lw ow : List (Fl K)} {sea : Fl K} {ix : ℕ} {r : Transect K} {t : TransFig K}
    (hs : 0 < q.BeachSlope) (hd : 0 ≤ q.BeachTopElev + q.ClosureDepth) (hr : rows[ix]? = some r) (ho : Ordered r)
    (hsea : ∀ c, r.y0 = fin c → toe q c ≤ 1000) (hland : ∀ a, r.y4 = fin a → -1000 ≤ a)
    (h : updateTransectFig q ix rows lw ow sea = .ok t) : Landward t.ground := by
  obtain ⟨r', _, _, h1, _, _, hg, _⟩ := updateTransect_inv h
  rw [hr] at h1
  cases h1
  obtain ⟨a, b, c, e4, e3, e0, hab, hbc, hcase⟩ := ho
  have k1 := hsea c e0
  have k2 := hland a e4
  have k3 : c ≤ toe q c := le_add_of_nonneg_right (div_nonneg hd hs.le)
  have ht : r.y0 + fin (q.BeachTopElev + q.ClosureDepth) / fin q.BeachSlope = fin (toe q c) := by
    rw [e0, div_fin _ _ hs.ne']; rfl
  rw [hg]
  unfold groundLine Landward
  dsimp only
  rw [ht, e0, e3, e4]
  rcases hcase with h2 | ⟨u, v, h2, h1, hbu, huv, hvc⟩
  · rw [h2]
    by_cases he : a = b
    · subst he
      refine ⟨[1000, toe q c, c, c, a, a, -1000], ?_, ?_⟩
      · simp [Fl.isnan, Fl.beq]
      · have z1 := hbc.trans k3
        simp [*, z1.trans k1, k3.trans k1, k2.trans hbc, (k2.trans hbc).trans k3, ((k2.trans hbc).trans k3).trans k1]
    · refine ⟨[1000, toe q c, c, c, b, b, a, a, -1000], ?_, ?_⟩
      · simp [Fl.isnan, Fl.beq, Ne.symm he]
      · have z0 := hab.trans hbc
        have z1 := z0.trans k3
        have z2 := k2.trans hab
        simp [*, z1.trans k1, k3.trans k1, hbc.trans k3, (hbc.trans k3).trans k1, z2.trans hbc, (z2.trans hbc).trans k3, ((z2.trans hbc).trans k3).trans k1]
  · rw [h2, h1]
    have w1 := huv.trans hvc
    have w2 := hbu.trans huv
    have w3 := hvc.trans k3
    have w4 := w1.trans k3
    have w5 := hbc.trans k3
    have w6 := hab.trans hbu
    have w7 := hab.trans w2
    have w8 := hab.trans hbc
    have w9 := w8.trans k3
    by_cases he : a = b
    · subst he
      refine ⟨[1000, toe q c, c, c, v, v, u, u, a, a, -1000], ?_, ?_⟩
      · simp [Fl.isnan, Fl.beq]
      · simp [*, k3.trans k1, w3.trans k1, w4.trans k1, w5.trans k1, k2.trans hbu, k2.trans w2, k2.trans hbc, k2.trans w5, (k2.trans w5).trans k1]
    · refine ⟨[1000, toe q c, c, c, v, v, u, u, b, b, a, a, -1000], ?_, ?_⟩
      · simp [Fl.isnan, Fl.beq, Ne.symm he]
      · simp [*, k3.trans k1, w3.trans k1, w4.trans k1, w5.trans k1, w9.trans k1, k2.trans hab, k2.trans w6, k2.trans w7, k2.trans w8, k2.trans w9, (k2.trans w9).trans k1]

/-- C106 fails whenever the toe of the beach is more than 1000 seaward of the river mouth, or the cliff more than 1000 landward. -/
theorem C106_refuted_general {q : TransPars K} {rows : List (Transect K)} {lw ow : List (Fl K)} {sea : Fl K} {ix : ℕ} {r : Transect K} {t : TransFig K}
    (hs : 0 < q.BeachSlope) (hr : rows[ix]? = some r) (hbad : (∃ c, r.y0 = fin c ∧ 1000 < toe q c) ∨ ∃ a, r.y4 = fin a ∧ a < -1000)
    (h : updateTransectFig q ix rows lw ow sea = .ok t) : ¬ Landward t.ground := by
  obtain ⟨r', _, _, h1, _, _, hg, _⟩ := updateTransect_inv h
  rw [hr] at h1
  cases h1
  rintro ⟨xs, hx, hp⟩
  rw [hg] at hx
  rcases hbad with ⟨c, e0, hc⟩ | ⟨a, e4, ha⟩
  · have ht : r.y0 + fin (q.BeachTopElev + q.ClosureDepth) / fin q.BeachSlope = fin (toe q c) := by
      rw [e0, div_fin _ _ hs.ne']; rfl
    unfold groundLine at hx
    dsimp only at hx
    rw [ht] at hx
    cases xs with
    | nil => simp at hx
    | cons x0 t => cases t with
      | nil => simp at hx
      | cons x1 t =>
        simp only [List.cons_append, List.map_cons, List.cons.injEq, fin.injEq] at hx
        have := (List.pairwise_cons.mp hp).1 x1 (by simp)
        rw [← hx.1, ← hx.2.1] at this
        exact absurd this (not_le.mpr hc)
  · unfold groundLine at hx
    dsimp only at hx
    rw [e4] at hx
    have hrev := congrArg List.reverse hx
    rw [List.reverse_append, ← List.map_reverse] at hrev
    have hp' : xs.reverse.Pairwise (fun a b => a ≤ b) := by rw [List.pairwise_reverse]; exact hp
    cases hxs : xs.reverse with
    | nil => rw [hxs] at hrev; simp at hrev
    | cons x0 t => cases t with
      | nil => rw [hxs] at hrev; simp at hrev
      | cons x1 t =>
        rw [hxs] at hrev hp'
        simp only [List.reverse_cons, List.reverse_nil, List.nil_append, List.cons_append, List.map_cons, List.cons.injEq, fin.injEq] at hrev
        have := (List.pairwise_cons.mp hp').1 x1 (by simp)
        rw [← hrev.1, ← hrev.2.1] at this
        exact absurd this (not_le.mpr ha)

/-- C106 refuted: a transect with the shoreline at 950 and the toe of the beach at 1046. -/
theorem C106_refuted : ¬ C106 ℚ := by
  intro h
  have hu : okAnd (updateTransectFig trPars 0 [{ brRow 0 with y0 := fin 950 }] [fin 1] [nan] (fin 0)) (fun _ => true) = true := by decide +kernel
  obtain ⟨t, hu, _⟩ := okAnd_iff.mp hu
  refine C106_refuted_general (by decide +kernel) (r := { brRow 0 with y0 := fin 950 }) rfl (.inl ⟨950, rfl, by decide +kernel⟩) hu
    (h _ _ _ _ _ _ _ _ (by decide +kernel) (by decide +kernel) (by exact rfl) ?_ hu)
  exact ⟨0, 20, 950, by decide +kernel, by decide +kernel, rfl, by decide +kernel, by decide +kernel, .inl (by decide +kernel)⟩

/-- The hypotheses of `C106_partial` are met by the sample transect with the outlet. -/
example : Ordered { brRow 20 with y1 := fin 60, y2 := fin 55, z1 := fin 0, z2 := fin 3 } ∧ toe trPars 100 ≤ 1000 :=
  ⟨⟨0, 20, 100, by decide +kernel, by decide +kernel, by decide +kernel, by decide +kernel, by decide +kernel,
    .inr ⟨55, 60, rfl, rfl, by decide +kernel, by decide +kernel, by decide +kernel⟩⟩, by decide +kernel⟩

/-! ## C107: the long section -/

theorem longSection_inv {root : Fl K → Fl K} {g : K} {dx elev width dep vel : List (Fl K)} {load : Option (List (Fl K))} {S : LongSec K}
    (h : longSection root g dx elev width dep vel load = .ok S) :
    elev.length = dx.length + 1 ∧ dep.length = elev.length ∧ vel.length = elev.length ∧ width.length = elev.length ∧
    S.bed = ⟨cumFrom (fin 0) dx, elev⟩ ∧ S.water = ⟨cumFrom (fin 0) dx, List.zipWith (· + ·) elev dep⟩ ∧
    S.energy = ⟨mids (cumFrom (fin 0) dx), List.zipWith (fun w v => w + v * v / (fin 2 * fin g)) (mids (List.zipWith (· + ·) elev dep)) (mids vel)⟩ ∧
    S.width = ⟨cumFrom (fin 0) dx, width⟩ ∧
    S.flow = ⟨cumFrom (fin 0) dx, List.zipWith (· * ·) (List.zipWith (· * ·) vel dep) width⟩ ∧ S.vel = ⟨cumFrom (fin 0) dx, vel⟩ ∧
    S.froude = ⟨cumFrom (fin 0) dx, List.zipWith (fun v d => Fl.abs v / root (fin g * d)) vel dep⟩ ∧
    (∃ mn mx, nanFold pymin S.flow.y = .ok mn ∧ nanFold pymax S.flow.y = .ok mx ∧ pymin (fin 0) mn = fin S.flowLim.1 ∧
      mx + fin (1 / 10) * (mx - pymin (fin 0) mn) = fin S.flowLim.2) ∧
    (load = none → S.load = none) ∧
    ∀ b, load = some b → b.length + 1 = elev.length ∧ S.load = some ⟨mids (cumFrom (fin 0) dx), b.map (· * fin 3600)⟩ ∧
      ∃ m hi, nanFold pymax (b.map (· * fin 3600)) = .ok m ∧ pymax m (fin 50) * fin (11 / 10) = fin hi ∧ S.loadLim = some (0, hi) := by
  unfold longSection at h
  simp only [bind_ok, zipOp_ok, plotLine_ok, pure_ok, axisLimit_ok] at h
  obtain ⟨wl, ⟨h1, rfl⟩, en, ⟨_, rfl⟩, fr, ⟨h2, rfl⟩, vd, ⟨_, rfl⟩, q, ⟨h3, rfl⟩, l1, ⟨h4, rfl⟩, l2, ⟨_, rfl⟩, l3, ⟨_, rfl⟩, l4, ⟨_, rfl⟩, l5, ⟨_, rfl⟩,
    l6, ⟨_, rfl⟩, l7, ⟨_, rfl⟩, ll, h5, mn, h6, mx, h7, lo, h8, hi, h9, lim, h10, rfl⟩ := h
  rw [cumFrom_length] at h4
  have hw : width.length = elev.length := by
    rw [List.length_zipWith] at h3; omega
  refine ⟨h4.symm, h1.symm, by omega, hw, rfl, rfl, rfl, rfl, rfl, rfl, rfl, ⟨mn, mx, h6, h7, h8, h9⟩, ?_, ?_⟩
  · rintro rfl
    simpa [loadLine] using h5.symm
  · rintro b rfl
    unfold loadLine at h5
    unfold loadLimit at h10
    simp only [bind_ok, plotLine_ok, pure_ok, axisLimit_ok] at h5 h10
    obtain ⟨l, ⟨h11, rfl⟩, rfl⟩ := h5
    obtain ⟨m, h12, h, h13, rfl⟩ := h10
    rw [mids_length, cumFrom_length, List.length_map] at h11
    exact ⟨by omega, rfl, m, h, h12, h13, rfl⟩

/-- C107: every line of the long section is drawn at the positions of the sections (or half way between them), positions being
accumulated from the distances between sections; the water line is bed level plus depth and the flow line is width times depth times
velocity. -/
theorem C107_lines {root : Fl K → Fl K} {g : K} {dx elev width dep vel : List (Fl K)} {load : Option (List (Fl K))} {S : LongSec K}
    (h : longSection root g dx elev width dep vel load = .ok S) :
    Chainage S.bed.x dx ∧ S.water.x = S.bed.x ∧ S.width.x = S.bed.x ∧ S.flow.x = S.bed.x ∧ S.vel.x = S.bed.x ∧ S.froude.x = S.bed.x ∧
    (∀ (k : ℕ) (x y : Fl K), S.bed.x[k]? = some x → S.bed.x[k + 1]? = some y → S.energy.x[k]? = some ((x + y) / fin 2)) ∧
    Paired S.bed ∧ Paired S.water ∧ Paired S.width ∧ Paired S.flow ∧ Paired S.vel ∧ Paired S.froude ∧ Paired S.energy ∧
    ∀ (k : ℕ) (z d v w : Fl K), elev[k]? = some z → dep[k]? = some d → vel[k]? = some v → width[k]? = some w →
      S.bed.y[k]? = some z ∧ S.water.y[k]? = some (z + d) ∧ S.width.y[k]? = some w ∧ S.flow.y[k]? = some (v * d * w) ∧ S.vel.y[k]? = some v := by
  obtain ⟨h1, h2, h3, h4, e1, e2, e3, e4, e5, e6, e7, _⟩ := longSection_inv h
  have hl := cumFrom_length (fin 0 : Fl K) dx
  rw [e1, e2, e3, e4, e5, e6, e7]
  refine ⟨⟨hl, cumFrom_zero _ _, fun k a d ha hd => cumFrom_step _ _ ha hd⟩, rfl, rfl, rfl, rfl, rfl, ?_, ?_, ?_, ?_, ?_, ?_, ?_, ?_, ?_⟩
  · intro k x y hx hy
    dsimp only at hx hy ⊢
    unfold mids
    rw [List.getElem?_zipWith, hx, List.getElem?_tail, hy]
  · simp [Paired, hl, h1]
  · simp [Paired, hl, h1, h2]
  · simp [Paired, hl, h1, h4]
  · simp [Paired, hl, h1, h2, h3, h4]
  · simp [Paired, hl, h1, h3]
  · simp [Paired, hl, h1, h2, h3]
  · simp [Paired, mids_length, hl, h1, h2, h3]
  · intro k z d v w hz hd hv hw
    refine ⟨hz, ?_, hw, ?_, hv⟩
    · simp [List.getElem?_zipWith, hz, hd]
    · simp [List.getElem?_zipWith, hv, hd, hw]

theorem mids_get {l : List (Fl K)} {k : ℕ} {a b : Fl K} (ha : l[k]? = some a) (hb : l[k + 1]? = some b) : (mids l)[k]? = some ((a + b) / fin 2) := by
  unfold mids
  rw [List.getElem?_zipWith, ha, List.getElem?_tail, hb]

/-- C107: the energy line is never below the water level half way between two sections, and touches it exactly where the velocity
vanishes. -/
theorem C107_energy {root : Fl K → Fl K} {g : K} (hg : 0 < g) {dx elev width dep vel : List (Fl K)} {load : Option (List (Fl K))} {S : LongSec K}
    (h : longSection root g dx elev width dep vel load = .ok S) {k : ℕ} {w0 w1 v0 v1 : K} (hw0 : S.water.y[k]? = some (fin w0))
    (hw1 : S.water.y[k + 1]? = some (fin w1)) (hv0 : vel[k]? = some (fin v0)) (hv1 : vel[k + 1]? = some (fin v1)) :
    ∃ E : K, S.energy.y[k]? = some (fin E) ∧ (w0 + w1) / 2 ≤ E ∧ (E = (w0 + w1) / 2 ↔ v0 + v1 = 0) := by
  obtain ⟨_, _, _, _, _, e2, e3, _⟩ := longSection_inv h
  rw [e2] at hw0 hw1
  have h2 : (2 : K) ≠ 0 := two_ne_zero
  have h3 : (2 * g : K) ≠ 0 := mul_ne_zero h2 hg.ne'
  refine ⟨(w0 + w1) / 2 + (v0 + v1) / 2 * ((v0 + v1) / 2) / (2 * g), ?_, ?_, ?_⟩
  · rw [e3]
    dsimp only
    rw [List.getElem?_zipWith, mids_get hw0 hw1, mids_get hv0 hv1]
    simp [h2, h3, hg.ne']
  · have : 0 ≤ (v0 + v1) / 2 * ((v0 + v1) / 2) / (2 * g) := div_nonneg (mul_self_nonneg _) (by positivity)
    linarith
  · rw [add_eq_left, div_eq_zero_iff, or_iff_left h3, mul_self_eq_zero, div_eq_zero_iff, or_iff_left h2]

/-- C107: over the reals the Froude line is below 1 exactly where the flow is slower than a shallow water wave. -/
theorem C107_froude {g : ℝ} (hg : 0 < g) {dx elev width dep vel : List (Fl ℝ)} {load : Option (List (Fl ℝ))} {S : LongSec ℝ}
    (h : longSection npSqrt g dx elev width dep vel load = .ok S) {k : ℕ} {d v : ℝ} (hd : dep[k]? = some (fin d)) (hv : vel[k]? = some (fin v))
    (hpos : 0 < d) : ∃ F : ℝ, S.froude.y[k]? = some (fin F) ∧ (F < 1 ↔ v ^ 2 < g * d) := by
  obtain ⟨_, _, _, _, _, _, _, _, _, _, e7, _⟩ := longSection_inv h
  have hgd : 0 < g * d := mul_pos hg hpos
  have hs : 0 < Real.sqrt (g * d) := Real.sqrt_pos.mpr hgd
  refine ⟨|v| / Real.sqrt (g * d), ?_, ?_⟩
  · rw [e7]
    dsimp only
    rw [List.getElem?_zipWith, hv, hd]
    simp [npSqrt_fin hgd.le, Fl.abs, hs.ne']
  · rw [div_lt_one hs, Real.lt_sqrt (abs_nonneg v), sq_abs]

/-- Everything in the list is a number. -/
def AllFin (l : List (Fl K)) : Prop := ∀ a ∈ l, ∃ v, a = fin v

theorem longSection_total (root : Fl K → Fl K) (g : K) {dx elev width dep vel : List (Fl K)} {load : Option (List (Fl K))}
    (h1 : elev.length = dx.length + 1) (h2 : dep.length = elev.length) (h3 : vel.length = elev.length) (h4 : width.length = elev.length)
    (f1 : AllFin width) (f2 : AllFin dep) (f3 : AllFin vel)
    (hb : ∀ b, load = some b → b.length = dx.length ∧ b ≠ [] ∧ AllFin b) : ∃ S, longSection root g dx elev width dep vel load = .ok S := by
  have hl := cumFrom_length (fin 0 : Fl K) dx
  have hq : AllFin (List.zipWith (· * ·) (List.zipWith (· * ·) vel dep) width) :=
    zipWith_fin (fun a b => ⟨a * b, rfl⟩) (zipWith_fin (fun a b => ⟨a * b, rfl⟩) f3 f2) f1
  have hqn : List.zipWith (· * ·) (List.zipWith (· * ·) vel dep) width ≠ [] := by
    apply List.ne_nil_of_length_pos
    simp
    omega
  obtain ⟨mn, hmn⟩ := nanFold_total (pick := pymin) hqn
  obtain ⟨mx, hmx⟩ := nanFold_total (pick := pymax) hqn
  obtain ⟨a, ha, _⟩ := nanFold_min hq hmn
  obtain ⟨b, hb', _⟩ := nanFold_max hq hmx
  obtain ⟨lo, hlo⟩ : ∃ lo, pymin (fin 0) mn = fin lo := by
    rw [ha]; unfold pymin; split
    · exact ⟨_, rfl⟩
    · exact ⟨_, rfl⟩
  obtain ⟨hi, hhi⟩ : ∃ hi, mx + fin (1 / 10) * (mx - pymin (fin 0) mn) = fin hi := by
    rw [hlo, hb']; exact ⟨_, rfl⟩
  have hload : ∃ ll, loadLine (mids (cumFrom (fin 0) dx)) load = .ok ll := by
    cases load with
    | none => exact ⟨none, rfl⟩
    | some b => exact ⟨_, bind_ok.mpr ⟨_, plotLine_ok.mpr ⟨by simp [mids_length, hl, (hb b rfl).1], rfl⟩, rfl⟩⟩
  have hlim : ∃ lim, loadLimit load = .ok lim := by
    cases load with
    | none => exact ⟨none, rfl⟩
    | some b =>
      obtain ⟨_, hne, hf⟩ := hb b rfl
      have hf' : AllFin (b.map (· * fin 3600)) := by
        intro x hx
        obtain ⟨y, hy, rfl⟩ := List.mem_map.mp hx
        obtain ⟨v, rfl⟩ := hf y hy
        exact ⟨v * 3600, rfl⟩
      obtain ⟨m, hm⟩ := nanFold_total (pick := pymax) (l := b.map (· * fin 3600)) (by simpa using hne)
      obtain ⟨v, rfl, _⟩ := nanFold_max hf' hm
      obtain ⟨u, hu⟩ : ∃ u, pymax (fin v) (fin 50) * fin (11 / 10) = fin u := by
        unfold pymax; split
        · exact ⟨_, rfl⟩
        · exact ⟨_, rfl⟩
      exact ⟨_, bind_ok.mpr ⟨_, hm, bind_ok.mpr ⟨u, axisLimit_ok.mpr hu, rfl⟩⟩⟩
  obtain ⟨ll, hll⟩ := hload
  obtain ⟨lim, hlim⟩ := hlim
  exact ⟨_, bind_ok.mpr ⟨_, zipOp_ok.mpr ⟨by omega, rfl⟩, bind_ok.mpr ⟨_, zipOp_ok.mpr ⟨by simp [mids_length]; omega, rfl⟩,
    bind_ok.mpr ⟨_, zipOp_ok.mpr ⟨by omega, rfl⟩, bind_ok.mpr ⟨_, zipOp_ok.mpr ⟨by omega, rfl⟩, bind_ok.mpr ⟨_, zipOp_ok.mpr ⟨by simp; omega, rfl⟩,
    bind_ok.mpr ⟨_, plotLine_ok.mpr ⟨by omega, rfl⟩, bind_ok.mpr ⟨_, plotLine_ok.mpr ⟨by simp; omega, rfl⟩,
    bind_ok.mpr ⟨_, plotLine_ok.mpr ⟨by simp [mids_length]; omega, rfl⟩, bind_ok.mpr ⟨_, plotLine_ok.mpr ⟨by omega, rfl⟩,
    bind_ok.mpr ⟨_, plotLine_ok.mpr ⟨by simp; omega, rfl⟩, bind_ok.mpr ⟨_, plotLine_ok.mpr ⟨by omega, rfl⟩,
    bind_ok.mpr ⟨_, plotLine_ok.mpr ⟨by simp; omega, rfl⟩, bind_ok.mpr ⟨ll, hll, bind_ok.mpr ⟨mn, hmn, bind_ok.mpr ⟨mx, hmx,
    bind_ok.mpr ⟨lo, axisLimit_ok.mpr hlo, bind_ok.mpr ⟨hi, axisLimit_ok.mpr hhi, bind_ok.mpr ⟨lim, hlim, rfl⟩⟩⟩⟩⟩⟩⟩⟩⟩⟩⟩⟩⟩⟩⟩⟩⟩⟩⟩

/-- C107: in every pass of a run the long section can be drawn, provided that widths, depths, velocities and bedload are numbers. -/
theorem C107_total [FloorRing K] (root : Fl K → Fl K) (g : K) {e : Env K} (hP : PartsLen e.parts) {xs : List K} {nr : ℕ} {s : CoreSt K} (hs : Sized xs nr s)
    {p : PassOut K} (h : compute e s = .ok p) (f1 : AllFin p.chan.width) (f2 : AllFin p.dep) (f3 : AllFin p.vel) (f4 : AllFin p.bed) :
    ∃ S, passSection root g p = .ok S := by
  have hk := compute_ok hP hs h
  have hlen := hk.chan.len
  have hcount := hk.chan.count
  have hne := List.length_pos_iff.mpr hk.chan.ne
  have := hk.pos
  have hb := hk.bed
  have hd := hk.dep
  have hv := hk.vel
  have k1 := hlen.elev
  have k2 := hlen.width
  have k3 := hlen.dx
  refine longSection_total root g (by omega) (by omega) (by omega) (by omega) f1 f2 f3 ?_
  intro b hb'
  cases hb'
  exact ⟨by omega, List.ne_nil_of_length_pos (by omega), f4⟩

/-- Two reaches of 10 m, flow 8 m³/s. -/
def seElev : List (Fl ℚ) := [fin 2, fin 1, fin 0]
def seSec : Except PyErr (LongSec ℚ) :=
  longSection (fun _ => fin 1) 10 [fin 10, fin 10] seElev [fin 4, fin 4, fin 8] [fin 1, fin 2, fin 2] [fin 2, fin 1, fin (1 / 2)] (some [fin 1, fin (-1)])

example : okAnd seSec (fun S => decide (S.bed.x = [fin 0, fin 10, fin 20] ∧ S.flow.y = [fin 8, fin 8, fin 8] ∧ S.flowLim = (0, 44 / 5) ∧
    S.energy.y[0]? = some (fin (3 + 9 / 80)))) = true := by decide +kernel

/-! ## C108: axes -/

/-- Claim C108 in full: the flow and the bedload axis cover what is drawn on them. -/
def C108 (K : Type) [Field K] [LinearOrder K] [IsStrictOrderedRing K] : Prop :=
  ∀ (root : Fl K → Fl K) (g : K) (dx elev width dep vel b : List (Fl K)) (S : LongSec K), AllFin width → AllFin dep → AllFin vel → AllFin b →
    longSection root g dx elev width dep vel (some b) = .ok S → OnAxis S.flowLim S.flow.y ∧
    ∃ lim l, S.loadLim = some lim ∧ S.load = some l ∧ OnAxis lim l.y

theorem flow_axis {root : Fl K → Fl K} {g : K} {dx elev width dep vel : List (Fl K)} {load : Option (List (Fl K))} {S : LongSec K}
    (f1 : AllFin width) (f2 : AllFin dep) (f3 : AllFin vel) (h : longSection root g dx elev width dep vel load = .ok S) :
    OnAxis S.flowLim S.flow.y ∧ S.flowLim.1 ≤ 0 := by
  obtain ⟨_, _, _, _, _, _, _, _, e5, _, _, ⟨mn, mx, h1, h2, h3, h4⟩, _⟩ := longSection_inv h
  have hq : AllFin S.flow.y := by
    rw [e5]
    exact zipWith_fin (fun a b => ⟨a * b, rfl⟩) (zipWith_fin (fun a b => ⟨a * b, rfl⟩) f3 f2) f1
  obtain ⟨a, rfl, ha⟩ := nanFold_min hq h1
  obtain ⟨b, rfl, hm, hb⟩ := nanFold_max hq h2
  have hp : pymin (fin 0) (fin a) = fin (min 0 a) := by
    by_cases hc : a < 0
    · simp [pymin, Fl.blt, hc, min_eq_right hc.le]
    · simp [pymin, Fl.blt, hc, min_eq_left (not_lt.mp hc)]
  rw [hp] at h3 h4
  have e1 : min 0 a = S.flowLim.1 := fin.inj h3
  have e2 : b + 1 / 10 * (b - min 0 a) = S.flowLim.2 := by simpa only [sub_fin, mul_fin, add_fin, fin.injEq] using h4
  have hab : a ≤ b := ha b hm
  have h0 : min 0 a ≤ a := min_le_right _ _
  refine ⟨fun v hv => ?_, by rw [← e1]; exact min_le_left _ _⟩
  have k1 := ha v hv
  have k2 := hb v hv
  constructor
  · linarith
  · have : 0 ≤ 1 / 10 * (b - min 0 a) := mul_nonneg (by norm_num) (by linarith)
    linarith

/-- C108, partial: the flow axis covers the flow line and contains zero, and the bedload axis covers the bedload line if no bedload is
negative.  Missing: bedload directed upstream (`C108_refuted_general`). -/
theorem C108_partial {root : Fl K → Fl K} {g : K} {dx elev width dep vel b : List (Fl K)} {S : LongSec K} (f1 : AllFin width) (f2 : AllFin dep)
    (f3 : AllFin vel) (f4 : AllFin b) (h : longSection root g dx elev width dep vel (some b) = .ok S) (hpos : ∀ v, fin v ∈ b → 0 ≤ v) :
    OnAxis S.flowLim S.flow.y ∧ S.flowLim.1 ≤ 0 ∧ ∃ lim l, S.loadLim = some lim ∧ S.load = some l ∧ OnAxis lim l.y := by
  obtain ⟨k1, k2⟩ := flow_axis f1 f2 f3 h
  refine ⟨k1, k2, ?_⟩
  obtain ⟨_, _, _, _, _, _, _, _, _, _, _, _, _, hl⟩ := longSection_inv h
  obtain ⟨_, e1, m, hi, hm, hh, e2⟩ := hl b rfl
  refine ⟨_, _, e2, e1, ?_⟩
  have hf' : AllFin (b.map (· * fin 3600)) := by
    intro x hx
    obtain ⟨y, hy, rfl⟩ := List.mem_map.mp hx
    obtain ⟨v, rfl⟩ := f4 y hy
    exact ⟨v * 3600, rfl⟩
  obtain ⟨v, rfl, _, hmax⟩ := nanFold_max hf' hm
  have hp : pymax (fin v) (fin 50) = fin (max v 50) := by
    by_cases hc : v < 50
    · simp [pymax, Fl.blt, hc, max_eq_right hc.le]
    · simp [pymax, Fl.blt, hc, max_eq_left (not_lt.mp hc)]
  rw [hp] at hh
  have e3 : max v 50 * (11 / 10) = hi := fin.inj hh
  intro w hw
  constructor
  · obtain ⟨y, hy, e⟩ := List.mem_map.mp hw
    obtain ⟨u, rfl⟩ := f4 y hy
    have : u * 3600 = w := fin.inj e
    rw [← this]
    exact mul_nonneg (hpos u hy) (by norm_num)
  · have h1 := hmax w hw
    have h2 : v ≤ max v 50 := le_max_left _ _
    have h3 : (50 : K) ≤ max v 50 := le_max_right _ _
    have : w ≤ max v 50 * (11 / 10) := by nlinarith
    rw [← e3]
    exact this

/-- C108 fails whenever some bedload is negative: the bedload axis starts at zero. -/
theorem C108_refuted_general {root : Fl K → Fl K} {g : K} {dx elev width dep vel b : List (Fl K)} {S : LongSec K} {v : K}
    (h : longSection root g dx elev width dep vel (some b) = .ok S) (hv : fin v ∈ b) (hneg : v < 0) :
    ¬ ∃ lim l, S.loadLim = some lim ∧ S.load = some l ∧ OnAxis lim l.y := by
  rintro ⟨lim, l, h1, h2, h3⟩
  obtain ⟨_, _, _, _, _, _, _, _, _, _, _, _, _, hl⟩ := longSection_inv h
  obtain ⟨_, e1, m, hi, _, _, e2⟩ := hl b rfl
  rw [h1] at e2
  rw [h2] at e1
  cases e1
  cases e2
  have := (h3 (v * 3600) (List.mem_map.mpr ⟨fin v, hv, rfl⟩)).1
  have h4 : v * 3600 < 0 := mul_neg_of_neg_of_pos hneg (by norm_num)
  exact absurd this (not_le.mpr h4)

/-- C108 refuted: bedload directed upstream in the second reach. -/
theorem C108_refuted : ¬ C108 ℚ := by
  intro h
  have hs : okAnd seSec (fun _ => true) = true := by decide +kernel
  obtain ⟨S, hS, _⟩ := okAnd_iff.mp hs
  have fin3 : ∀ (l : List ℚ), AllFin (l.map fin) := by
    intro l a ha
    obtain ⟨v, _, rfl⟩ := List.mem_map.mp ha
    exact ⟨v, rfl⟩
  refine C108_refuted_general (v := -1) hS (by simp) (by norm_num) (h _ _ _ _ _ _ _ _ _ (fin3 [4, 4, 8]) (fin3 [1, 2, 2]) (fin3 [2, 1, 1 / 2]) (fin3 [1, -1]) hS).2

/-! ## C109: the records shown by an animation -/

/-- Claim C109 in full: an animation from record `s` to record `e`, using every `r`-th record, shows the records `s, s + r, …` up to and
including the last record `e`. -/
def C109 : Prop := ∀ (size : ℕ) (s e r : ℤ), 0 ≤ s → s ≤ e → e < size → 0 < r → ∃ fs, frames size s (some e) r = .ok fs ∧ UpTo s e r fs

/-- C109 fails whenever the last record to be shown is one of `s, s + r, …`: it is not shown. -/
theorem C109_refuted_general {size : ℕ} {s e r : ℤ} {fs : List ℤ} (he : e ≤ size) (hr : 0 < r) (hd : ∃ k : ℕ, e = s + k * r)
    (h : frames size s (some e) r = .ok fs) : e ∉ fs ∧ ¬ UpTo s e r fs := by
  obtain ⟨fs', h1, h2, _⟩ := pyRange_pos (a := s) (b := e) hr
  have hend : endStep size (some e) = e := by simp [endStep, not_lt.mpr he]
  unfold frames at h
  rw [hend, h1] at h
  cases h
  have hn : e ∉ fs := fun hm => by obtain ⟨k, _, hk⟩ := (h2 e).mp hm; exact lt_irrefl _ hk
  exact ⟨hn, fun hu => hn ((hu e).mpr (by obtain ⟨k, hk⟩ := hd; exact ⟨k, hk, le_rfl⟩))⟩

/-- C109 refuted: of a file with 10 records, an animation from 2 to 5 shows 2, 3 and 4. -/
theorem C109_refuted : ¬ C109 := by
  intro h
  obtain ⟨fs, h1, h2⟩ := h 10 2 5 1 (by decide) (by decide) (by decide) (by decide)
  exact (C109_refuted_general (by decide) (by decide) ⟨3, by decide⟩ h1).2 h2

/-- C109, partial: the records shown are `s, s + r, …` before `e` (before the end of the file if no end is given or the end is beyond it);
they exist, and are shown in the order of time.  Missing: record `e` itself. -/
theorem C109_partial (size : ℕ) {s : ℤ} (e : Option ℤ) {r : ℤ} (hs : 0 ≤ s) (hr : 0 < r) :
    ∃ fs, frames size s e r = .ok fs ∧ fs.Pairwise (· < ·) ∧ (∀ i ∈ fs, 0 ≤ i ∧ i < size) ∧
      ∀ i, i ∈ fs ↔ ∃ k : ℕ, i = s + k * r ∧ i < size ∧ ∀ e', e = some e' → i < e' := by
  obtain ⟨fs, h1, h2, h3⟩ := pyRange_pos (a := s) (b := endStep size e) hr
  have key : ∀ i : ℤ, i < endStep size e ↔ i < size ∧ ∀ e', e = some e' → i < e' := by
    intro i
    cases e with
    | none => simp [endStep]
    | some e =>
      unfold endStep
      by_cases hc : (size : ℤ) < e
      · simp only [hc, if_true, Option.some.injEq, forall_eq']
        constructor
        · intro h; exact ⟨h, h.trans hc⟩
        · exact fun h => h.1
      · simp only [hc, if_false, Option.some.injEq, forall_eq']
        constructor
        · intro h; exact ⟨h.trans_le (not_lt.mp hc), h⟩
        · exact fun h => h.2
  refine ⟨fs, h1, h3, ?_, ?_⟩
  · intro i hi
    obtain ⟨k, rfl, hk⟩ := (h2 i).mp hi
    exact ⟨by positivity, ((key _).mp hk).1⟩
  · intro i
    rw [h2]
    constructor
    · rintro ⟨k, h4, h5⟩; exact ⟨k, h4, (key i).mp h5⟩
    · rintro ⟨k, h4, h5⟩; exact ⟨k, h4, (key i).mpr h5⟩

/-- C109: without options every record of the file is shown once, in order. -/
theorem C109_default (size : ℕ) : frames size 0 none 1 = .ok ((List.range size).map (fun k : ℕ => (k : ℤ))) := by
  simp [frames, pyRange, endStep]

/-! ## C110: animated maps -/

/-- Every record of the file can be read. -/
def Readable (f : NcFile K) : Prop := ∀ i < f.times.length, ∃ r, readTimestep f i = .ok r ∧ 2 ≤ r.rows.length

/-- Claim C110 in full: an animation of the map view of a readable file shows a drawable map for each of the chosen records. -/
def C110 (K : Type) [Field K] [LinearOrder K] [IsStrictOrderedRing K] : Prop :=
  ∀ (free : List (K × Fl K) → Fl K → Fl K) (f : NcFile K) (rw sw : K) (s : ℕ) (e : Option ℤ) (r : ℤ), Readable f → s < f.times.length → 0 < r →
    ∃ l, mapAnimation free f rw sw s e r = .ok l ∧ ∀ x ∈ l, Drawable x.2

/-- C110 fails whenever the outlet is closed in the first record shown. -/
theorem C110_refuted_general {free : List (K × Fl K) → Fl K → Fl K} {f : NcFile K} {rw sw : K} {s : ℤ} {e : Option ℤ} {r : ℤ} {r0 : ReadOut K}
    (h0 : readStep f s = .ok r0) (ho : r0.outlet = []) (l : List (ℤ × View K)) : mapAnimation free f rw sw s e r ≠ .ok l := by
  intro h
  unfold mapAnimation at h
  rw [h0] at h
  obtain ⟨_, h1, h⟩ := bind_ok.mp h
  cases h1
  obtain ⟨v, h, _⟩ := bind_ok.mp h
  unfold modelView at h
  obtain ⟨_, _, h⟩ := bind_ok.mp h
  obtain ⟨_, _, h⟩ := bind_ok.mp h
  obtain ⟨cl, cr, rl, rr, hatch, usL, usR, dsL, dsR, lb, rb, _, _, _, _, h5, _⟩ := open_inv h rfl
  unfold bankEnds at h5
  simp only [bind_ok, ixGet_ok] at h5
  obtain ⟨_, _, _, _, _, _, _, _, o, h6, _⟩ := h5
  change r0.outlet[0]? = some o at h6
  rw [ho] at h6
  simp at h6

theorem readStep_nat (f : NcFile K) (i : ℕ) : readStep f (i : ℤ) = readTimestep f i := by
  unfold readStep
  rw [if_pos (Int.natCast_nonneg i), Int.toNat_natCast]

theorem read_outlet [FloorRing K] {f : NcFile K} {i : ℕ} {r : ReadOut K} (h : readTimestep f i = .ok r) :
    (r.Closed = true → r.outlet = []) ∧ ∀ j ∈ r.outlet, j < r.rows.length := by
  unfold readTimestep at h
  repeat' (obtain ⟨_, _, h⟩ := bind_ok.mp h)
  cases h
  dsimp only
  split
  · exact ⟨fun _ => rfl, fun j hj => by simp at hj⟩
  · next hc => exact ⟨fun h => absurd h hc, outletIx_bound _ _ _⟩

/-- A closed outlet is shown without failure once the animation is running. -/
theorem frame_total [FloorRing K] {free : List (K × Fl K) → Fl K → Fl K} {f : NcFile K} {rw sw : K} {i : ℕ} {r : ReadOut K} (h : readTimestep f i = .ok r)
    (h2 : 2 ≤ r.rows.length) (hop : r.Closed = false → r.outlet ≠ [] ∧ ∃ t ∈ r.rows, (t.y4 <? t.y3) = true) :
    ∃ v, animateMap free f rw sw i = .ok v ∧ Drawable v := by
  obtain ⟨v, hv, hk⟩ := view_total (free := free) (a := frameIn rw sw r) h2 (fun hc => ⟨(hop hc).1, (read_outlet h).2, (hop hc).2⟩)
  exact ⟨v, bind_ok.mpr ⟨r, by rw [readStep_nat]; exact h, hv⟩, hk.shore, hk.dots, hk.outlet, hk.lagoon, hk.cliff, hk.river, hk.water, hk.hatch⟩

/-- C110, partial: it holds if the outlet is open in the first record shown, and in every shown record an open outlet crosses a transect
and some transect has a lagoon; the records shown are those of C109.  Missing: files that start with a closed outlet, where the animation fails
(`C110_refuted_general`), and records with an open outlet between two transects. -/
theorem C110_partial [FloorRing K] {free : List (K × Fl K) → Fl K → Fl K} {f : NcFile K} {rw sw : K} {s : ℕ} {e : Option ℤ} {r : ℤ} (hf : Readable f)
    (hs : s < f.times.length) (hr : 0 < r) (hfirst : ∀ r0, readTimestep f s = .ok r0 → r0.Closed = false ∧ (∃ t ∈ r0.rows, t.y3.isnan = false))
    (hopen : ∀ (i : ℕ) (ri : ReadOut K), s ≤ i → readTimestep f i = .ok ri → ri.Closed = false → ri.outlet ≠ [] ∧ ∃ t ∈ ri.rows, (t.y4 <? t.y3) = true) :
    ∃ l fs, frames f.times.length s e r = .ok fs ∧ mapAnimation free f rw sw s e r = .ok l ∧ l.map (·.1) = fs ∧ ∀ x ∈ l, Drawable x.2 := by
  obtain ⟨fs, hfs, _, hbound, hmem⟩ := C109_partial f.times.length e (Int.natCast_nonneg s) hr
  obtain ⟨r0, hr0, h2⟩ := hf s hs
  obtain ⟨hc, t, ht, hy3⟩ := hfirst r0 hr0
  obtain ⟨ho, hl⟩ := hopen s r0 le_rfl hr0 hc
  have hstep : readStep f (s : ℤ) = .ok r0 := by rw [readStep_nat]; exact hr0
  have hne : (r0.rows.filter (fun r => !r.y3.isnan)).map (·.x) ≠ [] := by
    apply List.ne_nil_of_mem (a := t.x)
    exact List.mem_map.mpr ⟨t, (List.mem_filter (p := fun r : Transect K => !r.y3.isnan)).mpr ⟨ht, by rw [hy3]; rfl⟩, rfl⟩
  obtain ⟨v0, hv0, _⟩ := view_total (free := free) (a := { frameIn rw sw r0 with Closed := false }) h2 (fun _ => ⟨ho, (read_outlet hr0).2, hl⟩)
  obtain ⟨x0, hx0, _⟩ := pyGet_zero hne
  obtain ⟨x1, hx1, _⟩ := pyGet_neg (l := (r0.rows.filter (fun r => !r.y3.isnan)).map (·.x)) (k := 1) (by omega) (List.length_pos_iff.mpr hne)
  have hmv : modelView free (frameIn rw sw r0) = .ok v0 := bind_ok.mpr ⟨x0, hx0, bind_ok.mpr ⟨x1, hx1, hv0⟩⟩
  have key : ∀ fs' : List ℤ, (∀ i ∈ fs', i ∈ fs) → ∃ l : List (ℤ × View K),
      fs'.mapM (fun i => do let v ← animateMap free f rw sw i; return (i, v)) = (.ok l : Except PyErr _) ∧ l.map (·.1) = fs' ∧ ∀ x ∈ l, Drawable x.2 := by
    intro fs'
    induction fs' with
    | nil => intro _; exact ⟨[], rfl, rfl, by simp⟩
    | cons i t ih =>
      intro hsub
      obtain ⟨l, h3, h4, h5⟩ := ih (fun j hj => hsub j (List.mem_cons_of_mem _ hj))
      have hi := hsub i (by simp)
      obtain ⟨b1, b2⟩ := hbound i hi
      obtain ⟨k, hk, _⟩ := (hmem i).mp hi
      obtain ⟨n, rfl⟩ := Int.eq_ofNat_of_zero_le b1
      have hsn : s ≤ n := by
        have : (0 : ℤ) ≤ k * r := by positivity
        omega
      obtain ⟨rn, hrn, hn2⟩ := hf n (by omega)
      obtain ⟨v, hv, hd⟩ := frame_total (free := free) (rw := rw) (sw := sw) hrn hn2 (hopen n rn hsn hrn)
      refine ⟨((n : ℤ), v) :: l, ?_, by simp [h4], ?_⟩
      · rw [List.mapM_cons]
        exact bind_ok.mpr ⟨_, bind_ok.mpr ⟨v, hv, rfl⟩, bind_ok.mpr ⟨l, h3, rfl⟩⟩
      · intro x hx
        rcases List.mem_cons.mp hx with rfl | hx
        · exact hd
        · exact h5 x hx
  obtain ⟨l, h3, h4, h5⟩ := key fs (fun i h => h)
  exact ⟨l, fs, hfs, bind_ok.mpr ⟨r0, hstep, bind_ok.mpr ⟨v0, hmv, bind_ok.mpr ⟨fs, hfs, h3⟩⟩⟩, h4, h5⟩

/-- A file with two records: the outlet is open in the first and closed in the second, or the other way round. -/
def anFile (c : Bool) : Except PyErr (NcFile ℚ) := writeAll exact ouFile [{ ouSnap 0 with Closed := c }, { ouSnap 5 with Closed := !c }]

theorem anFile_readable {c : Bool} {f : NcFile ℚ} (h : anFile c = .ok f) : Readable f ∧ f.times.length = 2 := by
  have key : ∀ c, okAnd (anFile c) (fun f => decide (f.times.length = 2) && okAnd (readTimestep f 0) (fun r => decide (2 ≤ r.rows.length)) &&
      okAnd (readTimestep f 1) (fun r => decide (2 ≤ r.rows.length))) = true := by decide +kernel
  obtain ⟨f', h1, h2⟩ := okAnd_iff.mp (key c)
  rw [h] at h1
  cases h1
  rw [Bool.and_eq_true, Bool.and_eq_true] at h2
  obtain ⟨⟨h3, h4⟩, h5⟩ := h2
  have hl := of_decide_eq_true h3
  obtain ⟨r0, e0, k0⟩ := okAnd_iff.mp h4
  obtain ⟨r1, e1, k1⟩ := okAnd_iff.mp h5
  refine ⟨?_, hl⟩
  intro i hi
  rw [hl] at hi
  rcases (by omega : i = 0 ∨ i = 1) with rfl | rfl
  · exact ⟨r0, e0, of_decide_eq_true k0⟩
  · exact ⟨r1, e1, of_decide_eq_true k1⟩

/-- C110 refuted: a file whose first record has a closed outlet. -/
theorem C110_refuted : ¬ C110 ℚ := by
  intro h
  have hw : okAnd (anFile true) (fun f => okAnd (readTimestep f 0) (fun r => decide (r.outlet = []))) = true := by decide +kernel
  obtain ⟨f, hf, hw⟩ := okAnd_iff.mp hw
  obtain ⟨r0, hr0, hw⟩ := okAnd_iff.mp hw
  obtain ⟨hR, hl⟩ := anFile_readable hf
  obtain ⟨l, hl, _⟩ := h (fun _ _ => nan) f 12 2 0 none 1 hR (by omega) (by decide)
  exact C110_refuted_general (r0 := r0) (by rw [readStep_nat]; exact hr0) (of_decide_eq_true hw) l hl

/-- The file that starts with an open outlet is animated: two frames, the second with a closed outlet. -/
example : okAnd (anFile false) (fun f => okAnd (mapAnimation (fun _ _ => nan) f 12 2 0 none 1) (fun l => decide (l.map (·.1) = [0, 1]))) = true := by
  decide +kernel

end Verif.Props
