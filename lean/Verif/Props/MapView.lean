import Verif.Model.MapView
import Verif.Spec.MapView
import Verif.Props.Geom
import Verif.Props.Load

set_option autoImplicit false
set_option linter.unusedSectionVars false

/-! # C129-C132: the map in real-world coordinates -/

namespace Verif.Props
open Verif Verif.Model Verif.Spec Fl

/-- A drawn point is at a place. -/
def DrawnAt (q : Fl ℝ × Fl ℝ) (p : ℝ × ℝ) : Prop := q = (fin p.1, fin p.2)

theorem mod2real_place (x y : ℝ) (o : ℝ × ℝ) (s : ℝ) : mod2real x y o s = seaPlace o s x y := by
  unfold mod2real seaPlace towards
  simp only [Real.sin_add_pi_div_two, Real.cos_add_pi_div_two]
  ext <;> simp <;> ring

theorem mod2realFl_fin (x y : ℝ) (o : ℝ × ℝ) (s : ℝ) : DrawnAt (mod2realFl x (fin y) o s) (seaPlace o s x y) := by
  unfold DrawnAt
  rw [← mod2real_place]
  unfold mod2realFl mod2real
  simp only [mul_fin, add_fin, sub_fin]

theorem mod2realFl_nan (x : ℝ) (o : ℝ × ℝ) (s : ℝ) : mod2realFl x nan o s = (nan, nan) := rfl

/-- The stages of `mapView`. -/
theorem mapView_inv {rows : List (Transect ℝ)} {o : ℝ × ℝ} {s : ℝ} {m : MapFig} (h : mapView rows o s = .ok m) :
    ∃ cl low cross i0 i1 r0 r1 a b, rows.mapM (fun r => finOf r.y4) = .ok cl ∧ minOf cl = .ok low ∧
      (intersectPolyline ((rows.map (·.x)).zip cl) 0)[0]? = some cross ∧
      (whereIx (fun r : Transect ℝ => !r.y3.isnan) rows)[0]? = some i0 ∧ (whereIx (fun r : Transect ℝ => !r.y3.isnan) rows).getLast? = some i1 ∧
      rows[i0]? = some r0 ∧ rows[i1]? = some r1 ∧ rows[0]? = some a ∧ rows.getLast? = some b ∧
      m.shore = mapLine rows (·.y0) o s ∧ m.bank = mapLine rows (·.y2) o s ∧ m.lagoon = mapLine rows (·.y3) o s ∧ m.cliff = mapLine rows (·.y4) o s ∧
      m.river = (mod2realFl 0 (fin (low * 3)) o s, mod2realFl 0 cross o s) ∧ m.end0 = mapEnd r0 o s ∧ m.end1 = mapEnd r1 o s ∧
      m.origin = o ∧ m.base = mod2real 0 0 o s ∧
      m.arrowX = (((mod2real b.x 0 o s).1 - (mod2real a.x 0 o s).1) / 20, ((mod2real b.x 0 o s).2 - (mod2real a.x 0 o s).2) / 20) ∧
      m.arrowY = (-m.arrowX.2, m.arrowX.1) ∧ m.labX = (m.base.1 + m.arrowX.1 * 2.4, m.base.2 + m.arrowX.2 * 2.4) ∧
      m.labY = (m.base.1 - m.arrowX.2 * 2.4, m.base.2 + m.arrowX.1 * 2.4) := by
  unfold mapView at h
  simp only [bind_ok, pure_ok, ixGet_ok, pyGet_last] at h
  obtain ⟨cl, h1, low, h2, cross, h3, i0, h4, i1, h5, r0, h6, r1, h7, a, h8, b, h9, rfl⟩ := h
  exact ⟨cl, low, cross, i0, i1, r0, r1, a, b, h1, h2, h3, h4, h5, h6, h7, h8, h9, rfl, rfl, rfl, rfl, rfl, rfl, rfl, rfl, rfl, rfl, rfl, rfl, rfl⟩

theorem mapLine_get {rows : List (Transect ℝ)} {f : Transect ℝ → Fl ℝ} {o : ℝ × ℝ} {s : ℝ} {i : ℕ} {r : Transect ℝ} (h : rows[i]? = some r) :
    (mapLine rows f o s)[i]? = some (mod2realFl r.x (f r) o s) := by
  unfold mapLine
  rw [List.getElem?_map, h]
  rfl

/-- A line of the map follows a feature: one point per transect, at the place of the feature, or a gap where there is none. -/
def Follows (line : List (Fl ℝ × Fl ℝ)) (rows : List (Transect ℝ)) (f : Transect ℝ → Fl ℝ) (o : ℝ × ℝ) (s : ℝ) : Prop :=
  line.length = rows.length ∧ ∀ (i : ℕ) (r : Transect ℝ), rows[i]? = some r →
    (∀ y, f r = fin y → ∃ q, line[i]? = some q ∧ DrawnAt q (seaPlace o s r.x y)) ∧ (f r = nan → line[i]? = some (nan, nan))

theorem mapLine_follows (rows : List (Transect ℝ)) (f : Transect ℝ → Fl ℝ) (o : ℝ × ℝ) (s : ℝ) : Follows (mapLine rows f o s) rows f o s := by
  refine ⟨by simp [mapLine], fun i r hr => ⟨fun y hy => ?_, fun hy => ?_⟩⟩
  · exact ⟨_, mapLine_get hr, by rw [hy]; exact mod2realFl_fin _ _ _ _⟩
  · rw [mapLine_get hr, hy]; rfl

/-- C129, features: shoreline, inner bank, lagoon edge and cliff are drawn at their places. -/
theorem C129_lines {rows : List (Transect ℝ)} {o : ℝ × ℝ} {s : ℝ} {m : MapFig} (h : mapView rows o s = .ok m) :
    Follows m.shore rows (·.y0) o s ∧ Follows m.bank rows (·.y2) o s ∧ Follows m.lagoon rows (·.y3) o s ∧ Follows m.cliff rows (·.y4) o s := by
  obtain ⟨_, _, _, _, _, _, _, _, _, _, _, _, _, _, _, _, _, _, h1, h2, h3, h4, _⟩ := mapView_inv h
  rw [h1, h2, h3, h4]
  exact ⟨mapLine_follows _ _ _ _, mapLine_follows _ _ _ _, mapLine_follows _ _ _ _, mapLine_follows _ _ _ _⟩

/-- C129, axes: both arrows start at the origin; that of X points to the right when looking out to sea and that of Y out to sea, both
with a twentieth of the length of the model; the labels are in the direction of their arrows. -/
theorem C129_axes {rows : List (Transect ℝ)} {o : ℝ × ℝ} {s : ℝ} {m : MapFig} (h : mapView rows o s = .ok m) :
    ∃ a b, rows.head? = some a ∧ rows.getLast? = some b ∧ m.origin = o ∧ m.base = o ∧
      m.arrowX = ((b.x - a.x) / 20) • towards (s + Real.pi / 2) ∧ m.arrowY = ((b.x - a.x) / 20) • towards s ∧
      m.labX = o + (12 / 5 : ℝ) • m.arrowX ∧ m.labY = o + (12 / 5 : ℝ) • m.arrowY := by
  obtain ⟨_, _, _, _, _, _, _, a, b, _, _, _, _, _, _, _, h1, h2, _, _, _, _, _, _, _, h3, h4, h5, h6, h7, h8⟩ := mapView_inv h
  have hb : m.base = o := by
    rw [h4, mod2real_place]
    unfold seaPlace
    simp
  have hx : m.arrowX = ((b.x - a.x) / 20) • towards (s + Real.pi / 2) := by
    rw [h5, mod2real_place, mod2real_place]
    unfold seaPlace towards
    ext <;> simp <;> ring
  refine ⟨a, b, by rw [List.head?_eq_getElem?]; exact h1, h2, h3, hb, hx, ?_, ?_, ?_⟩
  · rw [h6, hx]
    unfold towards
    ext <;> simp [Real.sin_add_pi_div_two, Real.cos_add_pi_div_two]
  · rw [h7, hb]
    ext <;> simp <;> ring
  · rw [h8, hb, h6]
    ext <;> simp <;> ring

theorem mapM_fin {rows : List (Transect ℝ)} : ∀ {cl : List ℝ}, rows.mapM (fun r => finOf r.y4) = .ok cl ↔ rows.map (·.y4) = cl.map fin := by
  induction rows with
  | nil => intro cl; simp only [List.mapM_nil, pure_ok]; cases cl <;> simp
  | cons r rows ih =>
    intro cl
    simp only [List.mapM_cons, bind_ok, pure_ok, List.map_cons]
    constructor
    · rintro ⟨c, h1, cs, h2, rfl⟩
      rw [List.map_cons, ← ih.mp h2]
      congr 1
      cases hy : r.y4 with
      | fin y => rw [hy] at h1; cases h1; rfl
      | nan => rw [hy] at h1; cases h1
      | pinf => rw [hy] at h1; cases h1
      | ninf => rw [hy] at h1; cases h1
    · intro h
      cases cl with
      | nil => cases h
      | cons c cs =>
        rw [List.map_cons] at h
        injection h with h1 h2
        exact ⟨c, by rw [h1]; rfl, cs, ih.mpr h2, rfl⟩

theorem zip_get {rows : List (Transect ℝ)} {cl : List ℝ} (hc : rows.map (·.y4) = cl.map fin) {i : ℕ} {p : ℝ × ℝ}
    (h : ((rows.map (·.x)).zip cl)[i]? = some p) : ∃ r, rows[i]? = some r ∧ p.1 = r.x ∧ r.y4 = fin p.2 := by
  rw [List.getElem?_zip_eq_some] at h
  obtain ⟨h1, h2⟩ := h
  rw [List.getElem?_map] at h1
  obtain ⟨r, hr, e⟩ := Option.map_eq_some_iff.mp h1
  refine ⟨r, hr, e.symm, ?_⟩
  have : (rows.map (·.y4))[i]? = (cl.map fin)[i]? := by rw [hc]
  rw [List.getElem?_map, List.getElem?_map, hr, h2] at this
  simpa using this

theorem segments_get {α : Type} {l : List α} {p q : α} (h : (p, q) ∈ segments l) : ∃ i, l[i]? = some p ∧ l[i + 1]? = some q := by
  unfold segments at h
  obtain ⟨i, hi⟩ := List.mem_iff_getElem?.mp h
  rw [List.getElem?_zip_eq_some, List.getElem?_tail] at hi
  exact ⟨i, hi⟩

/-- C129, river: it is drawn at the middle of the model (X = 0) and ends on the line of the cliff. -/
theorem C129_river {rows : List (Transect ℝ)} {o : ℝ × ℝ} {s : ℝ} {m : MapFig} (h : mapView rows o s = .ok m) :
    (∃ y, DrawnAt m.river.1 (seaPlace o s 0 y)) ∧
    ∃ (i : ℕ) (p q : Transect ℝ) (yp yq y : ℝ), rows[i]? = some p ∧ rows[i + 1]? = some q ∧ p.y4 = fin yp ∧ q.y4 = fin yq ∧
      OnSegment (p.x, yp) (q.x, yq) 0 y ∧ DrawnAt m.river.2 (seaPlace o s 0 y) := by
  obtain ⟨cl, low, cross, _, _, _, _, _, _, hc, _, hx, _, _, _, _, _, _, _, _, _, _, h1, _⟩ := mapView_inv h
  rw [h1]
  refine ⟨⟨_, mod2realFl_fin _ _ _ _⟩, ?_⟩
  have hF := C03_intersections ((rows.map (·.x)).zip cl) (0 : ℝ)
  generalize hs : (segments ((rows.map (·.x)).zip cl)).filter (fun s => decide (Straddles 0 s)) = segs at hF
  generalize intersectPolyline ((rows.map (·.x)).zip cl) (0 : ℝ) = out at hF hx
  cases hF with
  | nil => cases hx
  | @cons sg v segs' vs hv _ =>
    simp only [List.getElem?_cons_zero, Option.some.injEq] at hx
    subst hx
    obtain ⟨y, rfl, hon⟩ := hv
    have hmem : sg ∈ segments ((rows.map (·.x)).zip cl) := (List.mem_filter.mp (hs ▸ List.mem_cons_self)).1
    obtain ⟨i, g1, g2⟩ := segments_get (p := sg.1) (q := sg.2) hmem
    obtain ⟨p, k1, k2, k3⟩ := zip_get (mapM_fin.mp hc) g1
    obtain ⟨q, l1, l2, l3⟩ := zip_get (mapM_fin.mp hc) g2
    refine ⟨i, p, q, _, _, y, k1, l1, k3, l3, ?_, mod2realFl_fin _ _ _ _⟩
    rw [← k2, ← l2]
    exact hon

theorem minOf_spec {l : List ℝ} {a : ℝ} (h : minOf l = .ok a) : a ∈ l ∧ ∀ x ∈ l, a ≤ x := by
  cases l with
  | nil => cases h
  | cons b l =>
    unfold minOf at h
    cases h
    suffices hs : ∀ (l : List ℝ) (b : ℝ), (l.foldl min b ∈ b :: l) ∧ ∀ x ∈ b :: l, l.foldl min b ≤ x from hs l b
    intro l
    induction l with
    | nil => intro b; simp
    | cons c l ih =>
      intro b
      obtain ⟨h1, h2⟩ := ih (min b c)
      rw [List.foldl_cons]
      constructor
      · rcases List.mem_cons.mp h1 with h | h
        · rw [h]; rcases min_choice b c with e | e <;> rw [e] <;> simp
        · simp [h]
      · intro x hx
        have h0 := h2 (min b c) (by simp)
        rcases List.mem_cons.mp hx with rfl | hx
        · exact h0.trans (min_le_left _ _)
        · rcases List.mem_cons.mp hx with rfl | hx
          · exact h0.trans (min_le_right _ _)
          · exact h2 x (by simp [hx])

/-! ## C130: the map can be drawn for every model -/

theorem straddle_none {pts : List (ℝ × ℝ)} (h : (∀ p ∈ pts, (0 : ℝ) ≤ p.1) ∨ (∀ p ∈ pts, p.1 < 0)) : intersectPolyline pts (0 : ℝ) = [] := by
  have hF := C03_intersections pts (0 : ℝ)
  have : (segments pts).filter (fun s => decide (Straddles 0 s)) = [] := by
    rw [List.filter_eq_nil_iff]
    rintro ⟨p, q⟩ hm
    obtain ⟨i, g1, g2⟩ := segments_get hm
    have m1 := List.mem_of_getElem? g1
    have m2 := List.mem_of_getElem? g2
    simp only [decide_eq_true_eq]
    unfold Straddles
    simp only
    rcases h with h | h
    · have := h p m1; have := h q m2
      rintro (⟨_, _⟩ | ⟨_, _⟩) <;> linarith
    · have := h p m1; have := h q m2
      rintro (⟨_, _⟩ | ⟨_, _⟩) <;> linarith
  rw [this] at hF
  exact List.forall₂_nil_left_iff.mp hF

/-- C130 refuted, in general: without a transect to the left of the river (or with all of them to the left) the map cannot be drawn. -/
theorem C130_refuted_general {rows : List (Transect ℝ)} (h : (∀ r ∈ rows, (0 : ℝ) ≤ r.x) ∨ (∀ r ∈ rows, r.x < 0)) (o : ℝ × ℝ) (s : ℝ) (m : MapFig) :
    mapView rows o s ≠ .ok m := by
  intro hm
  obtain ⟨cl, low, cross, _, _, _, _, _, _, hc, _, hx, _⟩ := mapView_inv hm
  rw [straddle_none] at hx
  · cases hx
  · have key : ∀ p ∈ (rows.map (·.x)).zip cl, ∃ r ∈ rows, p.1 = r.x := by
      intro p hp
      obtain ⟨i, hi⟩ := List.mem_iff_getElem?.mp hp
      obtain ⟨r, hr, e, _⟩ := zip_get (mapM_fin.mp hc) hi
      exact ⟨r, List.mem_of_getElem? hr, e⟩
    rcases h with h | h
    · left
      intro p hp
      obtain ⟨r, hr, e⟩ := key p hp
      rw [e]; exact h r hr
    · right
      intro p hp
      obtain ⟨r, hr, e⟩ := key p hp
      rw [e]; exact h r hr

theorem straddle_exists (rows : List (Transect ℝ)) : ∀ (cl : List ℝ), rows.Pairwise (fun a b => a.x < b.x) → cl.length = rows.length →
    (∃ r ∈ rows, r.x < 0) → (∃ r ∈ rows, 0 ≤ r.x) → ∃ sg ∈ segments ((rows.map (·.x)).zip cl), Straddles 0 sg := by
  induction rows with
  | nil => rintro _ _ _ ⟨r, hr, _⟩; cases hr
  | cons a rows ih =>
    rintro cl hs hlen ⟨r1, m1, x1⟩ ⟨r2, m2, x2⟩
    cases rows with
    | nil =>
      simp only [List.mem_singleton] at m1 m2
      subst m1; subst m2
      linarith
    | cons b rows =>
      cases cl with
      | nil => cases hlen
      | cons c cl =>
        cases cl with
        | nil => simp at hlen
        | cons d cl =>
          by_cases hb : b.x < 0
          · have hm2 : r2 ∈ b :: rows := by
              rcases List.mem_cons.mp m2 with rfl | h
              · have := (List.pairwise_cons.mp hs).1 b (by simp)
                linarith
              · exact h
            obtain ⟨sg, hm, hst⟩ := ih (d :: cl) (List.pairwise_cons.mp hs).2 (by simpa using hlen) ⟨b, by simp, hb⟩ ⟨r2, hm2, x2⟩
            exact ⟨sg, List.mem_cons_of_mem _ hm, hst⟩
          · refine ⟨((a.x, c), (b.x, d)), by simp [segments], Or.inl ⟨?_, not_lt.mp hb⟩⟩
            simp only
            rcases List.mem_cons.mp m1 with rfl | h
            · exact x1
            · exact lt_trans ((List.pairwise_cons.mp hs).1 r1 h) x1

/-- C130, partial: a model with transects in order, at least one of them to the left of the river and one not, cliffs on all of them and a
lagoon edge on one, can be drawn.  (Missing: models without a transect to the left of the river.) -/
theorem C130_partial {rows : List (Transect ℝ)} (hs : rows.Pairwise (fun a b => a.x < b.x)) (hl : ∃ r ∈ rows, r.x < 0) (hr : ∃ r ∈ rows, 0 ≤ r.x)
    (hc : ∀ r ∈ rows, ∃ y, r.y4 = fin y) (h3 : ∃ r ∈ rows, r.y3 ≠ nan) (o : ℝ × ℝ) (s : ℝ) : ∃ m, mapView rows o s = .ok m := by
  have hcl : ∃ cl : List ℝ, rows.map (·.y4) = cl.map fin := by
    clear hs hl hr h3
    induction rows with
    | nil => exact ⟨[], rfl⟩
    | cons r rows ih =>
      obtain ⟨y, hy⟩ := hc r (by simp)
      obtain ⟨cl, e⟩ := ih (fun x hx => hc x (by simp [hx]))
      exact ⟨y :: cl, by rw [List.map_cons, List.map_cons, hy, e]⟩
  obtain ⟨cl, hcl⟩ := hcl
  have hlen : cl.length = rows.length := by
    have := congrArg List.length hcl
    simpa using this.symm
  have hne : rows ≠ [] := by rintro rfl; obtain ⟨r, hr, _⟩ := hl; cases hr
  obtain ⟨low, hlow⟩ : ∃ low, minOf cl = .ok low := by
    cases cl with
    | nil => rw [List.length_nil] at hlen; exact absurd (List.length_eq_zero_iff.mp hlen.symm) hne
    | cons c cs => exact ⟨_, rfl⟩
  have hcross : ∃ v, (intersectPolyline ((rows.map (·.x)).zip cl) (0 : ℝ))[0]? = some v := by
    have hF := C03_intersections ((rows.map (·.x)).zip cl) (0 : ℝ)
    suffices hex : ∃ sg ∈ segments ((rows.map (·.x)).zip cl), Straddles 0 sg by
      obtain ⟨sg, hm, hst⟩ := hex
      have hmem : sg ∈ (segments ((rows.map (·.x)).zip cl)).filter (fun s => decide (Straddles 0 s)) :=
        List.mem_filter.mpr ⟨hm, by simpa using hst⟩
      cases hI : intersectPolyline ((rows.map (·.x)).zip cl) (0 : ℝ) with
      | nil =>
        rw [hI, List.forall₂_nil_right_iff] at hF
        rw [hF] at hmem
        cases hmem
      | cons v vs => exact ⟨v, rfl⟩
    exact straddle_exists rows cl hs hlen hl hr
  obtain ⟨v, hv⟩ := hcross
  have hw : whereIx (fun r : Transect ℝ => !r.y3.isnan) rows ≠ [] := by
    obtain ⟨r, hr, hy⟩ := h3
    obtain ⟨i, hi⟩ := List.mem_iff_getElem?.mp hr
    have : i ∈ whereIx (fun r : Transect ℝ => !r.y3.isnan) rows := mem_whereIx.mpr ⟨r, hi, by
      cases h : r.y3 <;> simp_all [Fl.isnan]⟩
    exact List.ne_nil_of_mem this
  obtain ⟨i0, hi0⟩ : ∃ i0, (whereIx (fun r : Transect ℝ => !r.y3.isnan) rows)[0]? = some i0 := by
    cases hw' : whereIx (fun r : Transect ℝ => !r.y3.isnan) rows with
    | nil => exact absurd hw' hw
    | cons i l => exact ⟨i, rfl⟩
  obtain ⟨i1, hi1⟩ : ∃ i1, (whereIx (fun r : Transect ℝ => !r.y3.isnan) rows).getLast? = some i1 :=
    ⟨_, List.getLast?_eq_some_getLast hw⟩
  obtain ⟨r0, hr0, _⟩ := mem_whereIx.mp (List.mem_of_getElem? hi0)
  obtain ⟨r1, hr1, _⟩ := mem_whereIx.mp (List.mem_of_getLast? hi1)
  obtain ⟨a, ha⟩ : ∃ a, rows[0]? = some a := by
    cases rows with
    | nil => exact absurd rfl hne
    | cons a l => exact ⟨a, rfl⟩
  obtain ⟨b, hb⟩ : ∃ b, rows.getLast? = some b := ⟨_, List.getLast?_eq_some_getLast hne⟩
  unfold mapView
  simp only [bind_ok, pure_ok, ixGet_ok, pyGet_last]
  exact ⟨_, cl, mapM_fin.mpr hcl, low, hlow, v, hv, i0, hi0, i1, hi1, r0, hr0, r1, hr1, a, ha, b, hb, rfl⟩

/-! ## C131: the river is drawn from inland -/

/-- C131, partial: unless all cliffs are seaward of the baseline (Y > 0), the river comes from a place not seaward of any cliff; it is
landward of all of them if some cliff is landward of the baseline.  (Missing: coasts with all cliffs seaward of the baseline.) -/
theorem C131_partial {rows : List (Transect ℝ)} {o : ℝ × ℝ} {s : ℝ} {m : MapFig} (h : mapView rows o s = .ok m)
    (hc : ∃ r ∈ rows, ∃ y, r.y4 = fin y ∧ y ≤ 0) :
    ∃ y0, DrawnAt m.river.1 (seaPlace o s 0 y0) ∧ (∀ r ∈ rows, ∀ y, r.y4 = fin y → y0 ≤ y) ∧
      ((∃ r ∈ rows, ∃ y, r.y4 = fin y ∧ y < 0) → ∀ r ∈ rows, ∀ y, r.y4 = fin y → y0 < y) := by
  obtain ⟨cl, low, cross, _, _, _, _, _, _, hcl, hlow, _, _, _, _, _, _, _, _, _, _, _, h1, _⟩ := mapView_inv h
  rw [h1]
  have hmem : ∀ r ∈ rows, ∀ y, r.y4 = fin y → y ∈ cl := by
    intro r hr y hy
    have : fin y ∈ cl.map fin := by rw [← mapM_fin.mp hcl, ← hy]; exact List.mem_map_of_mem hr
    obtain ⟨z, hz, e⟩ := List.mem_map.mp this
    cases e
    exact hz
  have hle : ∀ r ∈ rows, ∀ y, r.y4 = fin y → low ≤ y := fun r hr y hy => (minOf_spec hlow).2 y (hmem r hr y hy)
  obtain ⟨r, hr, y, hy, hy0⟩ := hc
  have hl0 : low ≤ 0 := (hle r hr y hy).trans hy0
  refine ⟨low * 3, mod2realFl_fin _ _ _ _, fun r hr y hy => ?_, fun ⟨r', hr', y', hy', hneg⟩ r hr y hy => ?_⟩
  · have := hle r hr y hy
    linarith
  · have h1 := hle r hr y hy
    have h2 := hle r' hr' y' hy'
    linarith

theorem place_inj {o : ℝ × ℝ} {s x y x' y' : ℝ} (h : seaPlace o s x y = seaPlace o s x' y') : x = x' ∧ y = y' := by
  rw [← mod2real_place, ← mod2real_place] at h
  have h1 := C01_mod_real_mod x y o s
  rw [h, C01_mod_real_mod] at h1
  exact ⟨(congrArg Prod.fst h1).symm, (congrArg Prod.snd h1).symm⟩

/-- C131 refuted, in general: with all cliffs seaward of the baseline the river is drawn from a place that is not landward of all cliffs. -/
theorem C131_refuted_general {rows : List (Transect ℝ)} {o : ℝ × ℝ} {s : ℝ} {m : MapFig} (h : mapView rows o s = .ok m)
    (hc : ∀ r ∈ rows, ∀ y, r.y4 = fin y → 0 < y) :
    ∃ r ∈ rows, ∃ y, r.y4 = fin y ∧ ∀ y0, DrawnAt m.river.1 (seaPlace o s 0 y0) → y < y0 := by
  obtain ⟨cl, low, cross, _, _, _, _, _, _, hcl, hlow, _, _, _, _, _, _, _, _, _, _, _, h1, _⟩ := mapView_inv h
  have hm := (minOf_spec hlow).1
  have : fin low ∈ rows.map (·.y4) := by rw [mapM_fin.mp hcl]; exact List.mem_map_of_mem hm
  obtain ⟨r, hr, hy⟩ := List.mem_map.mp this
  refine ⟨r, hr, low, hy, fun y0 hd => ?_⟩
  have hpos := hc r hr low hy
  rw [h1] at hd
  have h2 := mod2realFl_fin 0 (low * 3) o s
  unfold DrawnAt at hd h2
  rw [h2] at hd
  have : seaPlace o s 0 (low * 3) = seaPlace o s 0 y0 := by
    have e1 := congrArg Prod.fst hd
    have e2 := congrArg Prod.snd hd
    simp only [fin.injEq] at e1 e2
    exact Prod.ext e1 e2
  have := (place_inj this).2
  linarith

/-! ## C132: the ends of the lagoon -/

/-- C132, partial: the two end lines run from the lagoon edge to the cliff, on the first and the last transect with a lagoon edge.
(Missing: that those are the ends of the lagoon; every transect of a loaded model has a lagoon edge, on the cliff where there is no
lagoon.) -/
theorem C132_partial {rows : List (Transect ℝ)} {o : ℝ × ℝ} {s : ℝ} {m : MapFig} (h : mapView rows o s = .ok m) :
    ∃ (i j : ℕ) (p q : Transect ℝ), rows[i]? = some p ∧ rows[j]? = some q ∧ p.y3 ≠ nan ∧ q.y3 ≠ nan ∧
      (∀ (k : ℕ) (r : Transect ℝ), rows[k]? = some r → r.y3 ≠ nan → i ≤ k ∧ k ≤ j) ∧
      (∀ y3 y4, p.y3 = fin y3 → p.y4 = fin y4 → DrawnAt m.end0.1 (seaPlace o s p.x y3) ∧ DrawnAt m.end0.2 (seaPlace o s p.x y4)) ∧
      (∀ y3 y4, q.y3 = fin y3 → q.y4 = fin y4 → DrawnAt m.end1.1 (seaPlace o s q.x y3) ∧ DrawnAt m.end1.2 (seaPlace o s q.x y4)) := by
  obtain ⟨_, _, _, i, j, p, q, _, _, _, _, _, hi, hj, hp, hq, _, _, _, _, _, _, _, h1, h2, _⟩ := mapView_inv h
  have nn : ∀ {k : ℕ}, k ∈ whereIx (fun r : Transect ℝ => !r.y3.isnan) rows ↔ ∃ r, rows[k]? = some r ∧ r.y3 ≠ nan := by
    intro k
    rw [mem_whereIx]
    refine exists_congr fun r => and_congr_right fun _ => ?_
    cases r.y3 <;> simp [Fl.isnan]
  have hp' := nn.mp (List.mem_of_getElem? hi)
  have hq' := nn.mp (List.mem_of_getLast? hj)
  rw [hp] at hp'
  rw [hq] at hq'
  obtain ⟨_, e1, n1⟩ := hp'
  obtain ⟨_, e2, n2⟩ := hq'
  cases e1
  cases e2
  refine ⟨i, j, p, q, hp, hq, n1, n2, ?_, ?_, ?_⟩
  · intro k r hr hn
    have hk := nn.mpr ⟨r, hr, hn⟩
    have hs := whereIx_sorted (fun r : Transect ℝ => !r.y3.isnan) rows
    obtain ⟨n, hn'⟩ := List.mem_iff_getElem?.mp hk
    rw [List.getLast?_eq_getElem?] at hj
    obtain ⟨l1, g1⟩ := List.getElem?_eq_some_iff.mp hn'
    obtain ⟨l0, g0⟩ := List.getElem?_eq_some_iff.mp hi
    obtain ⟨l2, g2⟩ := List.getElem?_eq_some_iff.mp hj
    rw [List.pairwise_iff_getElem] at hs
    constructor
    · rcases Nat.eq_zero_or_pos n with rfl | hpos
      · omega
      · have := hs 0 n l0 l1 hpos
        omega
    · rcases Nat.lt_or_ge n ((whereIx (fun r : Transect ℝ => !r.y3.isnan) rows).length - 1) with hlt | hge
      · have := hs n _ l1 l2 hlt
        omega
      · have : n = (whereIx (fun r : Transect ℝ => !r.y3.isnan) rows).length - 1 := by omega
        subst this
        omega
  · intro y3 y4 g3 g4
    rw [h1]
    unfold mapEnd
    rw [g3, g4]
    exact ⟨mod2realFl_fin _ _ _ _, mod2realFl_fin _ _ _ _⟩
  · intro y3 y4 g3 g4
    rw [h2]
    unfold mapEnd
    rw [g3, g4]
    exact ⟨mod2realFl_fin _ _ _ _, mod2realFl_fin _ _ _ _⟩

/-- C132 refuted, in general: if every transect has a lagoon edge, as in every loaded model, the end lines are on the first and the last
transect of the model, whatever the extent of the lagoon. -/
theorem C132_refuted_general {rows : List (Transect ℝ)} {o : ℝ × ℝ} {s : ℝ} {m : MapFig} (h : mapView rows o s = .ok m)
    (h3 : ∀ r ∈ rows, ∃ y, r.y3 = fin y) : ∃ a b y3 z3, rows.head? = some a ∧ rows.getLast? = some b ∧ a.y3 = fin y3 ∧ b.y3 = fin z3 ∧
      DrawnAt m.end0.1 (seaPlace o s a.x y3) ∧ DrawnAt m.end1.1 (seaPlace o s b.x z3) := by
  obtain ⟨i, j, p, q, hp, hq, _, _, hb, _⟩ := C132_partial h
  obtain ⟨_, _, _, i', j', p', q', a, b, _, _, _, hi, hj, hp', hq', ha, hl, _, _, _, _, _, h1, h2, _⟩ := mapView_inv h
  obtain ⟨y3, hy3⟩ := h3 a (List.mem_of_getElem? ha)
  obtain ⟨z3, hz3⟩ := h3 b (List.mem_of_getLast? hl)
  have hall : whereIx (fun r : Transect ℝ => !r.y3.isnan) rows = List.range rows.length := by
    unfold whereIx
    rw [List.filter_eq_self]
    intro k hk
    rw [List.mem_range] at hk
    obtain ⟨y, hy⟩ := h3 rows[k] (List.getElem_mem hk)
    simp [List.getElem?_eq_getElem hk, hy, Fl.isnan]
  have hpos : 0 < rows.length := List.length_pos_iff.mpr (by rintro rfl; cases ha)
  have e0 : i' = 0 := by
    rw [hall, List.getElem?_range hpos] at hi
    simpa using hi.symm
  have e1 : j' = rows.length - 1 := by
    rw [hall, List.getLast?_eq_getElem?, List.length_range, List.getElem?_range (by omega)] at hj
    simpa using hj.symm
  subst e0 e1
  rw [ha] at hp'
  rw [← List.getLast?_eq_getElem?, hl] at hq'
  obtain rfl : p' = a := by simpa using hp'.symm
  obtain rfl : q' = b := by simpa using hq'.symm
  refine ⟨p', q', y3, z3, by rw [List.head?_eq_getElem?]; exact ha, hl, hy3, hz3, ?_, ?_⟩
  · rw [h1]; unfold mapEnd; rw [hy3]; exact mod2realFl_fin _ _ _ _
  · rw [h2]; unfold mapEnd; rw [hz3]; exact mod2realFl_fin _ _ _ _

/-! ## Examples -/

/-- Five transects; a lagoon from -10 m to 10 m; cliffs at `c`. -/
noncomputable def mapRows (c : ℝ) : List (Transect ℝ) :=
  [⟨-20, fin 0, nan, nan, fin c, fin c, fin 3, nan, nan, fin 1⟩, ⟨-10, fin 0, nan, nan, fin (c + 5), fin c, fin 3, nan, nan, fin 1⟩,
   ⟨0, fin 0, fin (c + 8), fin (c + 6), fin (c + 5), fin c, fin 3, fin 0, fin 3, fin 1⟩,
   ⟨10, fin 0, nan, nan, fin (c + 5), fin c, fin 3, nan, nan, fin 1⟩, ⟨20, fin 0, nan, nan, fin c, fin c, fin 3, nan, nan, fin 1⟩]

theorem mapRows_ok (c : ℝ) (o : ℝ × ℝ) (s : ℝ) : ∃ m, mapView (mapRows c) o s = .ok m := by
  refine C130_partial ?_ ⟨⟨-20, fin 0, nan, nan, fin c, fin c, fin 3, nan, nan, fin 1⟩, by simp [mapRows], by norm_num⟩
    ⟨⟨20, fin 0, nan, nan, fin c, fin c, fin 3, nan, nan, fin 1⟩, by simp [mapRows], by norm_num⟩ ?_
    ⟨⟨20, fin 0, nan, nan, fin c, fin c, fin 3, nan, nan, fin 1⟩, by simp [mapRows], by simp⟩ o s
  · simp only [mapRows, List.pairwise_cons, List.mem_cons, List.not_mem_nil, or_false, forall_eq_or_imp, forall_eq, List.Pairwise.nil,
      false_imp_iff, implies_true, and_true]
    norm_num
  · intro r hr
    simp only [mapRows, List.mem_cons, List.not_mem_nil, or_false] at hr
    rcases hr with rfl | rfl | rfl | rfl | rfl <;> exact ⟨c, rfl⟩

/-- C131 refuted: cliffs 10 m seaward of the baseline. -/
theorem C131_refuted : ∃ m, mapView (mapRows 10) (0, 0) 0 = .ok m ∧ (∀ r ∈ mapRows 10, r.y4 = fin 10) ∧
    ∀ y0, DrawnAt m.river.1 (seaPlace (0, 0) 0 0 y0) → 10 < y0 := by
  obtain ⟨m, hm⟩ := mapRows_ok 10 (0, 0) 0
  have hc : ∀ r ∈ mapRows 10, r.y4 = fin 10 := by
    intro r hr
    simp only [mapRows, List.mem_cons, List.not_mem_nil, or_false] at hr
    rcases hr with rfl | rfl | rfl | rfl | rfl <;> rfl
  obtain ⟨r, hr, y, hy, hd⟩ := C131_refuted_general hm (fun r hr y hy => by rw [hc r hr] at hy; cases hy; norm_num)
  rw [hc r hr] at hy
  cases hy
  exact ⟨m, hm, hc, hd⟩

/-- C132 refuted: the lagoon extends from -10 m to 10 m but its ends are drawn at -20 m and 20 m. -/
theorem C132_refuted : ∃ m, mapView (mapRows (-10)) (0, 0) 0 = .ok m ∧ DrawnAt m.end0.1 (seaPlace (0, 0) 0 (-20) (-10)) ∧
    DrawnAt m.end1.1 (seaPlace (0, 0) 0 20 (-10)) := by
  obtain ⟨m, hm⟩ := mapRows_ok (-10) (0, 0) 0
  obtain ⟨a, b, y3, z3, ha, hb, e1, e2, d1, d2⟩ := C132_refuted_general hm (by
    intro r hr
    simp only [mapRows, List.mem_cons, List.not_mem_nil, or_false] at hr
    rcases hr with rfl | rfl | rfl | rfl | rfl <;> exact ⟨_, rfl⟩)
  simp only [mapRows, List.head?_cons, Option.some.injEq] at ha
  simp only [mapRows, List.getLast?_cons_cons, List.getLast?_singleton, Option.some.injEq] at hb
  subst ha hb
  simp only [fin.injEq] at e1 e2
  subst e1 e2
  exact ⟨m, hm, d1, d2⟩

/-- C131_partial holds for the same coast with cliffs 10 m inland. -/
example : ∃ m, mapView (mapRows (-10)) (0, 0) 0 = .ok m ∧ ∃ r ∈ mapRows (-10), ∃ y, r.y4 = fin y ∧ y ≤ 0 := by
  obtain ⟨m, hm⟩ := mapRows_ok (-10) (0, 0) 0
  exact ⟨m, hm, ⟨-20, fin 0, nan, nan, fin (-10), fin (-10), fin 3, nan, nan, fin 1⟩, by simp [mapRows], -10, rfl, by norm_num⟩

/-- C130 refuted: the straight shoreline without a part to the left of the river loads, but cannot be drawn. -/
theorem C130_refuted {c : ShoreCfg ℝ} (hdx : 0 < c.Dx) (hL : c.ShorelineLengthLeft = 0) (hR : 0 ≤ c.ShorelineLengthRight) :
    ∃ rows, defaultRows c = .ok rows ∧ ∀ (o : ℝ × ℝ) (s : ℝ) (m : MapFig), mapView rows o s ≠ .ok m := by
  obtain ⟨rows, h, h1, ⟨a, ha, la, ua⟩, _, n, ⟨r, hr, hx⟩, _⟩ := C62_transects hdx hL.ge hR
  rw [hL] at la ua
  rw [List.head?_eq_getElem?] at ha
  have hall : ∀ (i : ℕ) (r : Transect ℝ), rows[i]? = some r → r.x = a.x + i * c.Dx := by
    intro i
    induction i with
    | zero => intro r hr; rw [ha] at hr; cases hr; simp
    | succ i ih =>
      intro r hr
      obtain ⟨hl, _⟩ := List.getElem?_eq_some_iff.mp hr
      have hi := List.getElem?_eq_getElem (l := rows) (i := i) (by omega)
      have e1 := ih _ hi
      have e2 := h1 i _ _ hi hr
      push_cast
      linarith
  have hn : n = 0 := by
    by_contra hne
    have : (1 : ℝ) ≤ n := by exact_mod_cast Nat.one_le_iff_ne_zero.mpr hne
    have e := hall n r hr
    rw [hx] at e
    nlinarith
  subst hn
  rw [ha] at hr
  cases hr
  refine ⟨rows, h, C130_refuted_general (Or.inl ?_)⟩
  intro r hr
  obtain ⟨i, hi⟩ := List.mem_iff_getElem?.mp hr
  rw [hall i r hi, hx]
  positivity

/-- Such a configuration: 100 m to the right only. -/
example : ∃ c : ShoreCfg ℝ, 0 < c.Dx ∧ c.ShorelineLengthLeft = 0 ∧ 0 ≤ c.ShorelineLengthRight :=
  ⟨⟨0, 100, 50, 10, 20, 30, 10, -1, 0, 3⟩, by norm_num, rfl, by norm_num⟩

end Verif.Props
