import Verif.Lemmas.View

set_option autoImplicit false
set_option linter.unusedSectionVars false

/-! # What the parts of the map view are made of -/

namespace Verif.Model
open Verif Fl

variable {K : Type} [Field K] [LinearOrder K] [IsStrictOrderedRing K]

theorem pyGet_zero_ok {α : Type} {l : List α} {a : α} : pyGet l 0 = .ok a ↔ l[0]? = some a := by
  unfold pyGet
  rw [if_pos (by omega)]
  exact ixGet_ok

theorem pyGet_one_ok {α : Type} {l : List α} {a : α} : pyGet l 1 = .ok a ↔ l[1]? = some a := by
  unfold pyGet
  rw [if_pos (by omega)]
  exact ixGet_ok

/-- The left bank: vertices at the transects crossed. -/
theorem leftBank_inv {free : List (K × Fl K) → Fl K → Fl K} {a : ViewIn K} {us ds : Fl K} {l : Line K} (h : leftBank free a us ds = .ok l) :
    ∃ rs, gather a.rows a.outlet = .ok rs ∧
    (((us <? ds) = true ∧ ∃ r0 ya yb yc, rs[0]? = some r0 ∧ interpCol a.rows (·.y3) us = .ok ya ∧ interpCol a.rows (·.y0) ds = .ok yc ∧
        l.x = [us, us] ++ (rs.filter (fun r => fin r.x <? ds)).map (fun r => fin r.x) ++ [ds, ds] ∧
        l.y = [ya, r0.y1] ++ (rs.filter (fun r => fin r.x <? ds)).map (·.y1) ++ [yb, yc]) ∨
     ((us <? ds) = false ∧ ∃ ya yb yc yd ye, interpCol a.rows (·.y3) us = .ok ya ∧ interpCol a.rows (·.y0) ds = .ok ye ∧
        l.x = [us, us] ++ (rs.filter (fun r => fin r.x <? us)).map (fun r => fin r.x) ++ [pymin a.EndX1 us, ds, ds] ∧
        l.y = [ya, yb] ++ (rs.filter (fun r => fin r.x <? us)).map (·.y2) ++ [yc, yd, ye])) := by
  unfold leftBank at h
  obtain ⟨rs, hrs, h⟩ := bind_ok.mp h
  refine ⟨rs, hrs, ?_⟩
  by_cases hc : (us <? ds) = true
  · rw [if_pos hc] at h
    simp only [bind_ok, pure_ok, ixGet_ok] at h
    obtain ⟨ya, h1, r0, h2, yb, h3, yc, h4, rfl⟩ := h
    exact .inl ⟨hc, r0, ya, yb, yc, h2, h1, h4, rfl, rfl⟩
  · rw [if_neg hc] at h
    simp only [bind_ok, pure_ok] at h
    obtain ⟨ya, h1, yb, h2, s, h3, l3, h4, rfl⟩ := h
    exact .inr ⟨by simpa using hc, ya, yb, _, _, s, h1, h3, rfl, rfl⟩

/-- The right bank: vertices at the transects crossed, and the value line 347 writes. -/
theorem rightBank_inv {free : List (K × Fl K) → Fl K → Fl K} {a : ViewIn K} {us ds : Fl K} {l : Line K} {v : Option (Fl K)}
    (h : rightBank free a us ds = .ok (l, v)) :
    ∃ rs, gather a.rows a.outlet = .ok rs ∧
    (((us <? ds) = true ∧ ∃ ya yb yc yd ye, interpCol a.rows (·.y3) us = .ok ya ∧ interpCol a.rows (·.y0) ds = .ok ye ∧
        l.x = [us, us] ++ (rs.filter (fun r => us <? fin r.x)).map (fun r => fin r.x) ++ [pymax a.EndX1 us, ds, ds] ∧
        l.y = [ya, yb] ++ (rs.filter (fun r => us <? fin r.x)).map (·.y2) ++ [yc, yd, ye] ∧ v = some (npmin ye yc)) ∨
     ((us <? ds) = false ∧ ∃ r0 ya yb yc, rs[0]? = some r0 ∧ interpCol a.rows (·.y3) us = .ok ya ∧ interpCol a.rows (·.y0) ds = .ok yc ∧
        l.x = [us, us] ++ (rs.filter (fun r => ds <? fin r.x)).map (fun r => fin r.x) ++ [ds, ds] ∧
        l.y = [ya, r0.y1] ++ (rs.filter (fun r => ds <? fin r.x)).map (·.y1) ++ [yb, yc] ∧ v = none)) := by
  unfold rightBank at h
  obtain ⟨rs, hrs, h⟩ := bind_ok.mp h
  refine ⟨rs, hrs, ?_⟩
  by_cases hc : (us <? ds) = true
  · rw [if_pos hc] at h
    simp only [bind_ok, pure_ok, Prod.mk.injEq] at h
    obtain ⟨ya, h1, yb, h2, s, h3, l3, h4, rfl, rfl⟩ := h
    exact .inl ⟨hc, ya, yb, _, _, s, h1, h3, rfl, rfl, rfl⟩
  · rw [if_neg hc] at h
    simp only [bind_ok, pure_ok, ixGet_ok, Prod.mk.injEq] at h
    obtain ⟨ya, h1, r0, h2, yb, h3, yc, h4, rfl, rfl⟩ := h
    exact .inr ⟨by simpa using hc, r0, ya, yb, yc, h2, h1, h4, rfl, rfl, rfl⟩

/-- Tidying changes the second and the last but one vertex only. -/
theorem bankTidy_inv {y y' : List (Fl K)} (h : bankTidy y = .ok y') :
    2 ≤ y.length ∧ y'.length = y.length ∧ ∀ i : ℕ, i ≠ 1 → i ≠ y.length - 2 → y'[i]? = y[i]? := by
  unfold bankTidy at h
  simp only [bind_ok, pure_ok, pyGet_zero_ok, pyGet_one_ok] at h
  obtain ⟨a, _, b, hb, c, _, d, _, rfl⟩ := h
  have h2 : 1 < y.length := (List.getElem?_eq_some_iff.mp hb).1
  refine ⟨h2, by rw [setBack_length, List.length_set], ?_⟩
  intro i h1 h3
  unfold setBack
  rw [List.length_set, List.getElem?_set_ne (by omega), List.getElem?_set_ne (by omega)]

/-- The banks after the last corrections. -/
theorem banks_inv {free : List (K × Fl K) → Fl K → Fl K} {a : ViewIn K} {usL usR dsL dsR : Fl K} {l r : Line K}
    (h : banks free a usL usR dsL dsR = .ok (l, r)) :
    ∃ l0 r0 v, leftBank free a usL dsL = .ok l0 ∧ rightBank free a usR dsR = .ok (r0, v) ∧ l.x = l0.x ∧ r.x = r0.x ∧
      l.y.length = l0.y.length ∧ r.y.length = r0.y.length ∧
      (∀ i : ℕ, i ≠ 1 → i ≠ l0.y.length - 2 → l.y[i]? = (match v with | some v => setBack l0.y 3 v | none => l0.y)[i]?) ∧
      ∀ i : ℕ, i ≠ 1 → i ≠ r0.y.length - 2 → r.y[i]? = r0.y[i]? := by
  unfold banks at h
  simp only [bind_ok, pure_ok, Prod.mk.injEq] at h
  obtain ⟨l0, h1, ⟨r0, v⟩, h2, ly, h3, ry, h4, rfl, rfl⟩ := h
  obtain ⟨_, e3, k3⟩ := bankTidy_inv h3
  obtain ⟨_, e4, k4⟩ := bankTidy_inv h4
  cases v with
  | none => exact ⟨l0, r0, none, h1, h2, rfl, rfl, e3, e4, k3, k4⟩
  | some v =>
    simp only [setBack_length] at e3 k3
    exact ⟨l0, r0, some v, h1, h2, rfl, rfl, e3, e4, k3, k4⟩

/-- What a view of an open outlet is made of. -/
theorem open_inv {free : List (K × Fl K) → Fl K → Fl K} {a : ViewIn K} {v : View K} (h : updateModelView free a = .ok v) (hc : a.Closed = false) :
    ∃ cl cr rl rr hatch usL usR dsL dsR lb rb, cliffLeft a = .ok cl ∧ cliffRight a = .ok cr ∧ riverBanks a cl cr = .ok (rl, rr) ∧
      cliffHatch cl cr rl rr = .ok hatch ∧ bankEnds a = .ok (usL, usR, dsL, dsR) ∧ banks free a usL usR dsL dsR = .ok (lb, rb) ∧
      openView a usL usR dsL dsR lb rb cl cr rl rr hatch = .ok v := by
  unfold updateModelView at h
  obtain ⟨cl, h1, h⟩ := bind_ok.mp h
  obtain ⟨cr, h2, h⟩ := bind_ok.mp h
  obtain ⟨⟨rl, rr⟩, h3, h⟩ := bind_ok.mp h
  obtain ⟨hatch, h4, h⟩ := bind_ok.mp h
  rw [if_neg (by rw [hc]; decide)] at h
  obtain ⟨⟨uL, uR, dL, dR⟩, h5, h⟩ := bind_ok.mp h
  obtain ⟨⟨lb, rb⟩, h6, h7⟩ := bind_ok.mp h
  exact ⟨cl, cr, rl, rr, hatch, uL, uR, dL, dR, lb, rb, h1, h2, h3, h4, h5, h6, h7⟩

/-- What a view of a closed outlet is made of. -/
theorem closed_inv {free : List (K × Fl K) → Fl K → Fl K} {a : ViewIn K} {v : View K} (h : updateModelView free a = .ok v) (hc : a.Closed = true) :
    ∃ cl cr rl rr hatch, cliffLeft a = .ok cl ∧ cliffRight a = .ok cr ∧ riverBanks a cl cr = .ok (rl, rr) ∧
      cliffHatch cl cr rl rr = .ok hatch ∧ closedView a cl cr rl rr hatch = .ok v := by
  unfold updateModelView at h
  obtain ⟨cl, h1, h⟩ := bind_ok.mp h
  obtain ⟨cr, h2, h⟩ := bind_ok.mp h
  obtain ⟨⟨rl, rr⟩, h3, h⟩ := bind_ok.mp h
  obtain ⟨hatch, h4, h⟩ := bind_ok.mp h
  rw [if_pos hc] at h
  exact ⟨cl, cr, rl, rr, hatch, h1, h2, h3, h4, h⟩

/-- The transects on which `p` holds, at the position of the line `f`. -/
def colLine (rows : List (Transect K)) (p : Transect K → Bool) (f : Transect K → Fl K) : Line K :=
  { x := (rows.filter p).map (fun r => fin r.x), y := (rows.filter p).map f }

/-- Shoreline, dots, outlet and lagoon lines of an open outlet. -/
theorem openView_inv {a : ViewIn K} {usL usR dsL dsR : Fl K} {lb rb cl cr rl rr hatch : Line K} {v : View K}
    (h : openView a usL usR dsL dsR lb rb cl cr rl rr hatch = .ok v) :
    ∃ xl yl xr yr xl0 yl0 xr0 yr0, lb.x.getLast? = some xl ∧ lb.y.getLast? = some yl ∧ rb.x.getLast? = some xr ∧ rb.y.getLast? = some yr ∧
      lb.x[0]? = some xl0 ∧ lb.y[0]? = some yl0 ∧ rb.x[0]? = some xr0 ∧ rb.y[0]? = some yr0 ∧
      v.shore.x = ((colLine a.rows (fun r => fin r.x ≤? dsL) (·.y0)).x ++ [xl]) ++ nan :: (xr :: (colLine a.rows (fun r => dsR ≤? fin r.x) (·.y0)).x) ∧
      v.shore.y = ((colLine a.rows (fun r => fin r.x ≤? dsL) (·.y0)).y ++ [yl]) ++ nan :: (yr :: (colLine a.rows (fun r => dsR ≤? fin r.x) (·.y0)).y) ∧
      v.lagoon.x = ((colLine a.rows (fun r => fin r.x ≤? usL) (·.y3)).x ++ [xl0]) ++ nan :: (xr0 :: (colLine a.rows (fun r => usR ≤? fin r.x) (·.y3)).x) ∧
      v.lagoon.y = ((colLine a.rows (fun r => fin r.x ≤? usL) (·.y3)).y ++ [yl0]) ++ nan :: (yr0 :: (colLine a.rows (fun r => usR ≤? fin r.x) (·.y3)).y) ∧
      v.dots = colLine a.rows (fun r => !(fin r.x ≤? dsL || dsR ≤? fin r.x)) (·.y0) ∧
      v.outlet = gap lb rb ∧ v.cliff = gap cl cr ∧ v.river = gap rl rr ∧ v.hatch = hatch ∧
      v.water.x.length + (lb.y.length + rb.y.length + cl.y.length + cr.y.length + rl.y.length + rr.y.length) =
        v.water.y.length + (lb.x.length + rb.x.length + cl.x.length + cr.x.length + rl.x.length + rr.x.length) := by
  unfold openView at h
  simp only [bind_ok, pure_ok, pyGet_zero_ok, pyGet_last] at h
  obtain ⟨xl, h1, yl, h2, xr, h3, yr, h4, xl0, h5, yl0, h6, xr0, h7, yr0, h8, f, h9, g, h10, rfl⟩ := h
  refine ⟨xl, yl, xr, yr, xl0, yl0, xr0, yr0, h1, h2, h3, h4, h5, h6, h7, h8, ?_, ?_, ?_, ?_, rfl, rfl, rfl, rfl, rfl, ?_⟩
  · simp [gap, colLine]
  · simp [gap, colLine]
  · simp [gap, colLine]
  · simp [gap, colLine]
  · simp only [List.length_append, List.length_reverse, List.length_map, List.length_cons, List.length_nil]
    omega

end Verif.Model
