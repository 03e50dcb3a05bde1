import Verif.Model.View
import Verif.Lemmas.Py
import Verif.Lemmas.Sizes

set_option autoImplicit false
set_option linter.unusedSectionVars false

/-! # Lemmas on the map view -/

namespace Verif.Model
open Verif Fl

variable {K : Type} [Field K] [LinearOrder K] [IsStrictOrderedRing K]

theorem interpFl_total {pts : List (K × Fl K)} (h : pts ≠ []) (x : Fl K) : ∃ v, interpFl pts x = .ok v := by
  cases pts with
  | nil => exact absurd rfl h
  | cons p rest => cases x <;> exact ⟨_, rfl⟩

theorem interpCol_total {rows : List (Transect K)} (h : rows ≠ []) (f : Transect K → Fl K) (x : Fl K) : ∃ v, interpCol rows f x = .ok v :=
  interpFl_total (by simpa using h) x

theorem interpIx_total {free : List (K × Fl K) → Fl K → Fl K} {rows : List (Transect K)} {ixs : List ℕ} (hn : ixs ≠ []) (hb : ∀ i ∈ ixs, i < rows.length)
    (f : Transect K → Fl K) (x : Fl K) : ∃ v, interpIx free rows ixs f x = .ok v := by
  obtain ⟨rs, hrs⟩ := gather_range hb
  have hne : rs ≠ [] := by
    intro h0
    apply hn
    rw [← List.length_eq_zero_iff, ← gather_length hrs, h0]
    rfl
  by_cases hc : (rs.map (·.x)).Pairwise (· < ·)
  · obtain ⟨v, hv⟩ := interpFl_total (pts := rs.map (fun r => (r.x, f r))) (by simpa using hne) x
    exact ⟨v, bind_ok.mpr ⟨rs, hrs, by rw [if_pos hc]; exact hv⟩⟩
  · exact ⟨_, bind_ok.mpr ⟨rs, hrs, by rw [if_neg hc]; rfl⟩⟩

theorem pyGet_zero {α : Type} {l : List α} (h : l ≠ []) : ∃ a, pyGet l 0 = .ok a ∧ l[0]? = some a := by
  cases l with
  | nil => exact absurd rfl h
  | cons a l => exact ⟨a, rfl, rfl⟩

theorem pyGet_neg {α : Type} {l : List α} {k : ℕ} (hk : 0 < k) (h : k ≤ l.length) : ∃ a, pyGet l (-(k : ℤ)) = .ok a ∧ l[l.length - k]? = some a := by
  have hlt : l.length - k < l.length := by omega
  refine ⟨l[l.length - k], ?_, List.getElem?_eq_getElem hlt⟩
  unfold pyGet
  rw [if_neg (by omega), if_pos (by omega)]
  apply ixGet_ok.mpr
  rw [show ((l.length : ℤ) + -(k : ℤ)).toNat = l.length - k by omega, List.getElem?_eq_getElem hlt]

/-- X and Y coordinates of a line correspond. -/
def LineOk (l : Line K) : Prop := l.x.length = l.y.length

theorem cliffLeft_total {a : ViewIn K} (h : a.rows ≠ []) : ∃ l, cliffLeft a = .ok l ∧ LineOk l ∧ l.x ≠ [] := by
  obtain ⟨v, hv⟩ := interpCol_total h (·.y4) (fin (-a.RiverWidth / 2))
  exact ⟨_, bind_ok.mpr ⟨v, hv, rfl⟩, by simp [LineOk], by simp⟩

theorem cliffRight_total {a : ViewIn K} (h : a.rows ≠ []) : ∃ l, cliffRight a = .ok l ∧ LineOk l ∧ l.x ≠ [] := by
  obtain ⟨v, hv⟩ := interpCol_total h (·.y4) (fin (a.RiverWidth / 2))
  exact ⟨_, bind_ok.mpr ⟨v, hv, rfl⟩, by simp [LineOk], by simp⟩

theorem ne_of_len {l : Line K} (h : LineOk l) (hx : l.x ≠ []) : l.y ≠ [] := by
  intro h0
  apply hx
  unfold LineOk at h
  rw [h0] at h
  exact List.length_eq_zero_iff.mp h

theorem riverBanks_total (a : ViewIn K) {cl cr : Line K} (h1 : cl.y ≠ []) (h2 : cr.y ≠ []) :
    ∃ rl rr, riverBanks a cl cr = .ok (rl, rr) ∧ LineOk rl ∧ LineOk rr := by
  obtain ⟨yl, e1, _⟩ := pyGet_neg (k := 1) (by omega) (List.length_pos_iff.mpr h1)
  obtain ⟨yr, e2, _⟩ := pyGet_zero h2
  exact ⟨_, _, bind_ok.mpr ⟨yl, e1, bind_ok.mpr ⟨yr, e2, rfl⟩⟩, rfl, rfl⟩

theorem cliffHatch_total {cl cr lb rb : Line K} (h1 : cl.y ≠ []) (h2 : cl.x ≠ []) (h3 : cr.x ≠ []) (o1 : LineOk cl) (o2 : LineOk cr) (o3 : LineOk lb)
    (o4 : LineOk rb) : ∃ l, cliffHatch cl cr lb rb = .ok l ∧ LineOk l := by
  obtain ⟨xl, e1, _⟩ := pyGet_zero h2
  obtain ⟨yl, e2, _⟩ := pyGet_zero h1
  obtain ⟨xr, e3, _⟩ := pyGet_neg (k := 1) (by omega) (List.length_pos_iff.mpr h3)
  refine ⟨_, bind_ok.mpr ⟨xl, e1, bind_ok.mpr ⟨yl, e2, bind_ok.mpr ⟨xr, e3, rfl⟩⟩⟩, ?_⟩
  unfold LineOk at *
  simp [o1, o2, o3, o4]

theorem bankEnds_total {a : ViewIn K} (h2 : 2 ≤ a.rows.length) (ho : a.outlet ≠ []) (hb : ∀ i ∈ a.outlet, i < a.rows.length)
    (hl : ∃ r ∈ a.rows, (r.y4 <? r.y3) = true) : ∃ e, bankEnds a = .ok e := by
  obtain ⟨r, hr, hr2⟩ := hl
  have hne : (a.rows.filter (fun r => r.y4 <? r.y3)).map (·.x) ≠ [] := by
    intro h0
    have : r.x ∈ (a.rows.filter (fun r => r.y4 <? r.y3)).map (·.x) := List.mem_map.mpr ⟨r, List.mem_filter.mpr ⟨hr, hr2⟩, rfl⟩
    rw [h0] at this
    cases this
  obtain ⟨lo, hlo⟩ : ∃ lo, ((a.rows.filter (fun r => r.y4 <? r.y3)).map (·.x)).min? = some lo := by
    cases h : ((a.rows.filter (fun r => r.y4 <? r.y3)).map (·.x)).min? with
    | some v => exact ⟨v, rfl⟩
    | none => exact absurd (List.min?_eq_none_iff.mp h) hne
  obtain ⟨hi, hhi⟩ : ∃ hi, ((a.rows.filter (fun r => r.y4 <? r.y3)).map (·.x)).max? = some hi := by
    cases h : ((a.rows.filter (fun r => r.y4 <? r.y3)).map (·.x)).max? with
    | some v => exact ⟨v, rfl⟩
    | none => exact absurd (List.max?_eq_none_iff.mp h) hne
  obtain ⟨o, os, hos⟩ := List.exists_cons_of_ne_nil ho
  have ho0 : o < a.rows.length := hb o (by rw [hos]; exact List.mem_cons_self)
  refine ⟨_, bind_ok.mpr ⟨_, ixGet_ok.mpr (List.getElem?_eq_getElem (by omega)), bind_ok.mpr ⟨_, ixGet_ok.mpr (List.getElem?_eq_getElem (by omega)),
    bind_ok.mpr ⟨lo, by rw [hlo], bind_ok.mpr ⟨hi, by rw [hhi], bind_ok.mpr ⟨o, ixGet_ok.mpr (by rw [hos]; rfl), bind_ok.mpr ⟨_, ixGet_ok.mpr (List.getElem?_eq_getElem ho0), rfl⟩⟩⟩⟩⟩⟩⟩

theorem leftBank_total {free : List (K × Fl K) → Fl K → Fl K} {a : ViewIn K} (h : a.rows ≠ []) (ho : a.outlet ≠ []) (hb : ∀ i ∈ a.outlet, i < a.rows.length)
    (us ds : Fl K) : ∃ l, leftBank free a us ds = .ok l ∧ LineOk l ∧ 4 ≤ l.y.length := by
  obtain ⟨rs, hrs⟩ := gather_range hb
  have hrev : ∀ i ∈ a.outlet.reverse, i < a.rows.length := fun i hi => hb i (List.mem_reverse.mp hi)
  have hne : 0 < rs.length := by rw [gather_length hrs]; exact List.length_pos_iff.mpr ho
  unfold leftBank
  by_cases hc : (us <? ds) = true
  · obtain ⟨ya, h1⟩ := interpCol_total h (·.y3) us
    obtain ⟨yb, h2⟩ := interpIx_total (free := free) ho hb (·.y1) ds
    obtain ⟨yc, h3⟩ := interpCol_total h (·.y0) ds
    refine ⟨_, bind_ok.mpr ⟨rs, hrs, by rw [if_pos hc]; exact bind_ok.mpr ⟨ya, h1, bind_ok.mpr ⟨_, ixGet_ok.mpr (List.getElem?_eq_getElem hne), bind_ok.mpr ⟨yb, h2, bind_ok.mpr ⟨yc, h3, rfl⟩⟩⟩⟩⟩, ?_⟩
    · constructor
      · simp [LineOk]
      · simp
  · obtain ⟨ya, h1⟩ := interpCol_total h (·.y3) us
    obtain ⟨yb, h2⟩ := interpIx_total (free := free) (by simpa using ho) hrev (·.y2) us
    obtain ⟨s, h3⟩ := interpCol_total h (·.y0) ds
    obtain ⟨l, h4⟩ := interpCol_total h (·.y3) ds
    refine ⟨_, bind_ok.mpr ⟨rs, hrs, by rw [if_neg hc]; exact bind_ok.mpr ⟨ya, h1, bind_ok.mpr ⟨yb, h2, bind_ok.mpr ⟨s, h3, bind_ok.mpr ⟨l, h4, rfl⟩⟩⟩⟩⟩, ?_⟩
    · constructor
      · simp [LineOk]
      · simp

theorem rightBank_total {free : List (K × Fl K) → Fl K → Fl K} {a : ViewIn K} (h : a.rows ≠ []) (ho : a.outlet ≠ []) (hb : ∀ i ∈ a.outlet, i < a.rows.length)
    (us ds : Fl K) : ∃ l v, rightBank free a us ds = .ok (l, v) ∧ LineOk l ∧ 4 ≤ l.y.length := by
  obtain ⟨rs, hrs⟩ := gather_range hb
  have hrev : ∀ i ∈ a.outlet.reverse, i < a.rows.length := fun i hi => hb i (List.mem_reverse.mp hi)
  have hne : 0 < rs.length := by rw [gather_length hrs]; exact List.length_pos_iff.mpr ho
  unfold rightBank
  by_cases hc : (us <? ds) = true
  · obtain ⟨ya, h1⟩ := interpCol_total h (·.y3) us
    obtain ⟨yb, h2⟩ := interpIx_total (free := free) ho hb (·.y2) us
    obtain ⟨s, h3⟩ := interpCol_total h (·.y0) ds
    obtain ⟨l, h4⟩ := interpCol_total h (·.y3) ds
    refine ⟨_, _, bind_ok.mpr ⟨rs, hrs, by rw [if_pos hc]; exact bind_ok.mpr ⟨ya, h1, bind_ok.mpr ⟨yb, h2, bind_ok.mpr ⟨s, h3, bind_ok.mpr ⟨l, h4, rfl⟩⟩⟩⟩⟩, ?_⟩
    · constructor
      · simp [LineOk]
      · simp
  · obtain ⟨ya, h1⟩ := interpCol_total h (·.y3) us
    obtain ⟨yb, h2⟩ := interpIx_total (free := free) (by simpa using ho) hrev (·.y1) ds
    obtain ⟨yc, h3⟩ := interpCol_total h (·.y0) ds
    refine ⟨_, _, bind_ok.mpr ⟨rs, hrs, by rw [if_neg hc]; exact bind_ok.mpr ⟨ya, h1, bind_ok.mpr ⟨_, ixGet_ok.mpr (List.getElem?_eq_getElem hne), bind_ok.mpr ⟨yb, h2, bind_ok.mpr ⟨yc, h3, rfl⟩⟩⟩⟩⟩, ?_⟩
    · constructor
      · simp [LineOk]
      · simp

theorem setBack_length (l : List (Fl K)) (k : ℕ) (v : Fl K) : (setBack l k v).length = l.length := by unfold setBack; simp

theorem bankTidy_total {y : List (Fl K)} (h : 2 ≤ y.length) : ∃ y', bankTidy y = .ok y' ∧ y'.length = y.length := by
  obtain ⟨b, hb⟩ : ∃ b, y[1]? = some b := ⟨_, List.getElem?_eq_getElem (by omega)⟩
  obtain ⟨a, ha, _⟩ := pyGet_zero (l := y) (by intro h0; rw [h0] at h; simp at h)
  obtain ⟨c, hc, _⟩ := pyGet_neg (l := y.set 1 (npmax a b)) (k := 2) (by omega) (by simpa using h)
  obtain ⟨d, hd, _⟩ := pyGet_neg (l := y.set 1 (npmax a b)) (k := 1) (by omega) (by rw [List.length_set]; omega)
  refine ⟨_, bind_ok.mpr ⟨a, ha, bind_ok.mpr ⟨b, ixGet_ok.mpr hb, bind_ok.mpr ⟨c, hc, bind_ok.mpr ⟨d, hd, rfl⟩⟩⟩⟩, ?_⟩
  rw [setBack_length, List.length_set]

theorem banks_total {free : List (K × Fl K) → Fl K → Fl K} {a : ViewIn K} (h : a.rows ≠ []) (ho : a.outlet ≠ []) (hb : ∀ i ∈ a.outlet, i < a.rows.length)
    (usL usR dsL dsR : Fl K) : ∃ l r, banks free a usL usR dsL dsR = .ok (l, r) ∧ LineOk l ∧ LineOk r ∧ l.y ≠ [] ∧ r.y ≠ [] := by
  obtain ⟨l, h1, ok1, n1⟩ := leftBank_total (free := free) h ho hb usL dsL
  obtain ⟨r, v, h2, ok2, n2⟩ := rightBank_total (free := free) h ho hb usR dsR
  have hlen : (match v with | some v => setBack l.y 3 v | none => l.y).length = l.y.length := by
    cases v with
    | none => rfl
    | some v => exact setBack_length _ _ _
  obtain ⟨ly, h3, e3⟩ := bankTidy_total (y := match v with | some v => setBack l.y 3 v | none => l.y) (by omega)
  obtain ⟨ry, h4, e4⟩ := bankTidy_total (y := r.y) (by omega)
  refine ⟨_, _, bind_ok.mpr ⟨l, h1, bind_ok.mpr ⟨(r, v), h2, bind_ok.mpr ⟨ly, h3, bind_ok.mpr ⟨ry, h4, rfl⟩⟩⟩⟩, ?_, ?_, ?_, ?_⟩
  · unfold LineOk at *; simp only; omega
  · unfold LineOk at *; simp only; omega
  · simp only; intro h0; rw [h0] at e3; simp at e3; omega
  · simp only; intro h0; rw [h0] at e4; simp at e4; omega

/-- Every line and polygon of the view has as many X as Y coordinates. -/
structure ViewOk (v : View K) : Prop where
  shore : LineOk v.shore
  dots : LineOk v.dots
  outlet : LineOk v.outlet
  lagoon : LineOk v.lagoon
  cliff : LineOk v.cliff
  river : LineOk v.river
  water : LineOk v.water
  hatch : LineOk v.hatch

theorem openView_total {a : ViewIn K} (h : a.rows ≠ []) (usL usR dsL dsR : Fl K) {lb rb cl cr rl rr hatch : Line K} (o1 : LineOk lb) (o2 : LineOk rb)
    (n1 : lb.y ≠ []) (n2 : rb.y ≠ []) (o3 : LineOk cl) (o4 : LineOk cr) (o5 : LineOk rl) (o6 : LineOk rr) (o7 : LineOk hatch) :
    ∃ v, openView a usL usR dsL dsR lb rb cl cr rl rr hatch = .ok v ∧ ViewOk v := by
  have m1 : lb.x ≠ [] := by intro h0; apply n1; unfold LineOk at o1; rw [h0] at o1; exact List.length_eq_zero_iff.mp o1.symm
  have m2 : rb.x ≠ [] := by intro h0; apply n2; unfold LineOk at o2; rw [h0] at o2; exact List.length_eq_zero_iff.mp o2.symm
  obtain ⟨a1, e1, _⟩ := pyGet_neg (l := lb.x) (k := 1) (by omega) (List.length_pos_iff.mpr m1)
  obtain ⟨a2, e2, _⟩ := pyGet_neg (l := lb.y) (k := 1) (by omega) (List.length_pos_iff.mpr n1)
  obtain ⟨a3, e3, _⟩ := pyGet_neg (l := rb.x) (k := 1) (by omega) (List.length_pos_iff.mpr m2)
  obtain ⟨a4, e4, _⟩ := pyGet_neg (l := rb.y) (k := 1) (by omega) (List.length_pos_iff.mpr n2)
  obtain ⟨b1, f1, _⟩ := pyGet_zero m1
  obtain ⟨b2, f2, _⟩ := pyGet_zero n1
  obtain ⟨b3, f3, _⟩ := pyGet_zero m2
  obtain ⟨b4, f4, _⟩ := pyGet_zero n2
  obtain ⟨r1, g1, _⟩ := pyGet_zero h
  obtain ⟨r2, g2, _⟩ := pyGet_neg (l := a.rows) (k := 1) (by omega) (List.length_pos_iff.mpr h)
  refine ⟨_, bind_ok.mpr ⟨a1, e1, bind_ok.mpr ⟨a2, e2, bind_ok.mpr ⟨a3, e3, bind_ok.mpr ⟨a4, e4, bind_ok.mpr ⟨b1, f1, bind_ok.mpr ⟨b2, f2,
    bind_ok.mpr ⟨b3, f3, bind_ok.mpr ⟨b4, f4, bind_ok.mpr ⟨r1, g1, bind_ok.mpr ⟨r2, g2, rfl⟩⟩⟩⟩⟩⟩⟩⟩⟩⟩, ?_⟩
  unfold LineOk at o1 o2 o3 o4 o5 o6 o7
  constructor <;> simp [LineOk, gap, o1, o2, o3, o4, o5, o6, o7]

theorem closedView_total {a : ViewIn K} (h : a.rows ≠ []) {cl cr rl rr hatch : Line K} (o3 : LineOk cl) (o4 : LineOk cr) (o5 : LineOk rl)
    (o6 : LineOk rr) (o7 : LineOk hatch) : ∃ v, closedView a cl cr rl rr hatch = .ok v ∧ ViewOk v := by
  obtain ⟨r1, g1, _⟩ := pyGet_zero h
  obtain ⟨r2, g2, _⟩ := pyGet_neg (l := a.rows) (k := 1) (by omega) (List.length_pos_iff.mpr h)
  refine ⟨_, bind_ok.mpr ⟨r1, g1, bind_ok.mpr ⟨r2, g2, rfl⟩⟩, ?_⟩
  unfold LineOk at o3 o4 o5 o6 o7
  constructor <;> simp [LineOk, gap, o3, o4, o5, o6, o7]

/-- The view can be drawn if the outlet is closed, or if it crosses a transect and some transect has a lagoon. -/
theorem view_total {free : List (K × Fl K) → Fl K → Fl K} {a : ViewIn K} (h2 : 2 ≤ a.rows.length)
    (h : a.Closed = false → a.outlet ≠ [] ∧ (∀ i ∈ a.outlet, i < a.rows.length) ∧ ∃ r ∈ a.rows, (r.y4 <? r.y3) = true) :
    ∃ v, updateModelView free a = .ok v ∧ ViewOk v := by
  have hn : a.rows ≠ [] := by intro h0; rw [h0] at h2; simp at h2
  obtain ⟨cl, e1, k1, n1⟩ := cliffLeft_total hn
  obtain ⟨cr, e2, k2, n2⟩ := cliffRight_total hn
  obtain ⟨rl, rr, e3, k3, k4⟩ := riverBanks_total a (ne_of_len k1 n1) (ne_of_len k2 n2)
  obtain ⟨ht, e4, k5⟩ := cliffHatch_total (ne_of_len k1 n1) n1 n2 k1 k2 k3 k4
  cases hc : a.Closed with
  | true =>
    obtain ⟨v, e5, k6⟩ := closedView_total hn k1 k2 k3 k4 k5
    exact ⟨v, bind_ok.mpr ⟨cl, e1, bind_ok.mpr ⟨cr, e2, bind_ok.mpr ⟨(rl, rr), e3, bind_ok.mpr ⟨ht, e4, by rw [if_pos hc]; exact e5⟩⟩⟩⟩, k6⟩
  | false =>
    obtain ⟨h3, h4, h5⟩ := h hc
    obtain ⟨⟨uL, uR, dL, dR⟩, e5⟩ := bankEnds_total h2 h3 h4 h5
    obtain ⟨lb, rb, e6, k6, k7, n6, n7⟩ := banks_total (free := free) hn h3 h4 uL uR dL dR
    obtain ⟨v, e7, k8⟩ := openView_total hn uL uR dL dR k6 k7 n6 n7 k1 k2 k3 k4 k5
    refine ⟨v, bind_ok.mpr ⟨cl, e1, bind_ok.mpr ⟨cr, e2, bind_ok.mpr ⟨(rl, rr), e3, bind_ok.mpr ⟨ht, e4, ?_⟩⟩⟩⟩, k8⟩
    rw [if_neg (by rw [hc]; decide)]
    exact bind_ok.mpr ⟨_, e5, bind_ok.mpr ⟨_, e6, e7⟩⟩

end Verif.Model
