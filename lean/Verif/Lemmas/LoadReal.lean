import Verif.Model.LoadReal
import Verif.Lemmas.Geom
import Verif.Lemmas.Load
import Verif.Props.Geom
import Verif.Spec.Load

set_option autoImplicit false
set_option linter.unusedSectionVars false

namespace Verif.Model
open Verif Fl

/-! ### Coordinate system -/

theorem baseOrigin_eq {K : Type} [Field K] [LinearOrder K] [IsStrictOrderedRing K] {m b : K} (p : K × K) (hm : m ≠ 0) :
    ∃ ox : K, baseOrigin m b p = (fin ox, fin (m * ox + b)) ∧ (p.1 - ox) + m * (p.2 - (m * ox + b)) = 0 := by
  have h2 : m * m + 1 ≠ 0 := by nlinarith [mul_self_nonneg m]
  have hd : m + 1 / m ≠ 0 := by
    have : m + 1 / m = (m * m + 1) / m := by field_simp
    rw [this]; exact div_ne_zero h2 hm
  have h1 : (1 : K) / m = m⁻¹ := one_div m
  refine ⟨(p.2 + p.1 / m - b) / (m + 1 / m), ?_, ?_⟩
  · simp only [baseOrigin, div_fin _ _ hm, add_fin, sub_fin, div_fin _ _ hd, mul_fin, Prod.mk.injEq, fin.injEq, true_and]
    ring
  · field_simp
    ring

theorem baseOrigin_flat {K : Type} [Field K] [LinearOrder K] [IsStrictOrderedRing K] (b : K) (p : K × K) :
    baseOrigin 0 b p = (nan, nan) := by
  have h : ∀ a : K, (fin p.2 + fin a / fin (0 : K) - fin b) / (fin (0 : K) + fin 1 / fin 0) = (nan : Fl K) := by
    intro a
    have e1 : (fin (1 : K) / fin 0 : Fl K) = pinf := by rw [div_fin_def]; simp [infOfSign]
    rw [e1, div_fin_def, if_pos rfl]
    unfold infOfSign
    split_ifs <;> rfl
  unfold baseOrigin
  simp only [h, nan_mul, nan_add]

theorem baseNormal_trig (m b : ℝ) (p : ℝ × ℝ) :
    (m * p.1 + b > 0 → Real.sin (baseNormal m b p) = m / Real.sqrt (1 + m^2) ∧ Real.cos (baseNormal m b p) = -1 / Real.sqrt (1 + m^2)) ∧
    (¬ m * p.1 + b > 0 → Real.sin (baseNormal m b p) = -m / Real.sqrt (1 + m^2) ∧ Real.cos (baseNormal m b p) = 1 / Real.sqrt (1 + m^2)) := by
  have key : ∀ y x : ℝ, x ^ 2 = 1 → ∀ s : ℝ, s ^ 2 = m ^ 2 → y = s →
      Real.sin (arctan2 y x) = y / Real.sqrt (1 + m^2) ∧ Real.cos (arctan2 y x) = x / Real.sqrt (1 + m^2) := by
    intro y x hx s hs hy
    subst hy
    have hz : (⟨x, y⟩ : ℂ) ≠ 0 := by
      intro h
      have := congrArg Complex.re h
      simp only [Complex.zero_re] at this
      subst this; norm_num at hx
    have hn : ‖(⟨x, y⟩ : ℂ)‖ = Real.sqrt (1 + m^2) := by
      rw [Complex.norm_def, Complex.normSq_mk]
      congr 1; nlinarith
    unfold arctan2
    refine ⟨?_, ?_⟩
    · rw [Complex.sin_arg, hn]
    · rw [Complex.cos_arg hz, hn]
  constructor
  · intro h
    unfold baseNormal
    rw [if_pos (by linarith)]
    exact key m (-1) (by norm_num) m rfl rfl
  · intro h
    unfold baseNormal
    rw [if_neg (by linarith)]
    exact key (-m) 1 (by norm_num) (-m) (by ring) rfl

/-! ### Intersections and interpolation -/

section grid
variable {K : Type} [Field K] [LinearOrder K] [IsStrictOrderedRing K]

theorem intersect_fin (pts : List (K × K)) (x : K) (v : Fl K) (h : v ∈ intersectPolyline pts x) : ∃ y, v = fin y ∧
    ∃ s ∈ Spec.segments pts, Spec.Straddles x s ∧ Spec.OnSegment s.1 s.2 x y := by
  rw [intersectPolyline_eq, List.mem_map] at h
  obtain ⟨s, hs, rfl⟩ := h
  rw [List.mem_filter, decide_eq_true_eq] at hs
  obtain ⟨y, h1, h2⟩ := crossY_on x s hs.2
  exact ⟨y, h1, s, hs.1, hs.2, h2⟩

theorem intersect_mem {pts : List (K × K)} {x y : K} {s : (K × K) × (K × K)} (hs : s ∈ Spec.segments pts) (hx : Spec.Straddles x s)
    (hy : Spec.OnSegment s.1 s.2 x y) : fin y ∈ intersectPolyline pts x := by
  rw [intersectPolyline_eq, List.mem_map]
  refine ⟨s, List.mem_filter.mpr ⟨hs, by simpa using hx⟩, ?_⟩
  obtain ⟨y', h1, h2⟩ := crossY_on x s hx
  rw [h1, Props.C03_unique x y' y s.1 s.2 hx h2 hy]

theorem foldl_npmax_fin (l : List (Fl K)) (a : K) (hl : ∀ v ∈ l, ∃ y, v = fin y) :
    ∃ y, l.foldl npmax (fin a) = fin y ∧ (y = a ∨ fin y ∈ l) ∧ a ≤ y ∧ ∀ z, fin z ∈ l → z ≤ y := by
  induction l generalizing a with
  | nil => exact ⟨a, rfl, Or.inl rfl, le_refl _, by simp⟩
  | cons v l ih =>
    obtain ⟨w, rfl⟩ := hl v (by simp)
    obtain ⟨y, h1, h2, h3, h4⟩ := ih (max a w) (fun v hv => hl v (by simp [hv]))
    refine ⟨y, by simpa using h1, ?_, le_trans (le_max_left _ _) h3, ?_⟩
    · rcases h2 with h2 | h2
      · rcases max_choice a w with h | h
        · left; rw [h2, h]
        · right; rw [h2, h]; simp
      · right; simp [h2]
    · intro z hz
      rcases List.mem_cons.mp hz with h | h
      · cases h; exact le_trans (le_max_right _ _) h3
      · exact h4 z h

theorem amax_fin {l : List (Fl K)} {v : Fl K} (h : amax l = .ok v) (hl : ∀ v ∈ l, ∃ y, v = fin y) :
    ∃ y, v = fin y ∧ fin y ∈ l ∧ ∀ z, fin z ∈ l → z ≤ y := by
  cases l with
  | nil => cases h
  | cons a r =>
    obtain ⟨w, rfl⟩ := hl a (by simp)
    obtain ⟨y, h1, h2, h3, h4⟩ := foldl_npmax_fin r w (fun v hv => hl v (by simp [hv]))
    unfold amax at h
    dsimp only at h
    rw [h1] at h
    cases h
    refine ⟨y, rfl, ?_, ?_⟩
    · rcases h2 with rfl | h2 <;> simp [*]
    · intro z hz
      rcases List.mem_cons.mp hz with h | h
      · cases h; exact h3
      · exact h4 z h

theorem interpScan_on (rest : List (K × K)) : ∀ (p : K × K) (x : K), (∀ s ∈ Spec.segments (p :: rest), s.1.1 < s.2.1) → p.1 ≤ x →
    (∀ q, (p :: rest).getLast? = some q → x < q.1) →
    ∃ y, interpScan p.1 (fin p.2) (rest.map (fun q => (q.1, fin q.2))) x = fin y ∧
      ∃ s ∈ Spec.segments (p :: rest), Spec.OnSegment s.1 s.2 x y ∧ s.1.1 ≤ x ∧ x < s.2.1 := by
  induction rest with
  | nil =>
    intro p x _ h1 h2
    exact absurd (h2 p rfl) (not_lt.mpr h1)
  | cons q rest ih =>
    intro p x hs h1 h2
    have hpq : p.1 < q.1 := hs (p, q) (by simp [Spec.segments])
    simp only [List.map_cons, interpScan]
    by_cases hx : x < q.1
    · rw [if_pos hx]
      by_cases hx0 : x ≤ p.1
      · rw [if_pos hx0]
        refine ⟨p.2, rfl, (p, q), by simp [Spec.segments], ⟨0, le_refl _, zero_le_one, ?_, ?_⟩, h1, hx⟩
        · rw [le_antisymm hx0 h1]; ring
        · ring
      · rw [if_neg hx0]
        have hne : q.1 - p.1 ≠ 0 := by linarith
        refine ⟨(q.2 - p.2) / (q.1 - p.1) * (x - p.1) + p.2, by simp [hne], (p, q), by simp [Spec.segments],
          ⟨(x - p.1) / (q.1 - p.1), div_nonneg (by linarith) (by linarith), ?_, ?_, ?_⟩, h1, hx⟩
        · rw [div_le_one (by linarith)]; linarith
        · simp only; field_simp; ring
        · simp only; field_simp; ring
    · rw [if_neg hx]
      obtain ⟨y, e1, s, e2, e3⟩ := ih q x (fun s hm => hs s (by
        have : Spec.segments (p :: q :: rest) = (p, q) :: Spec.segments (q :: rest) := rfl
        rw [this]; simp [hm])) (not_lt.mp hx) (fun r hr => h2 r (by simpa using hr))
      refine ⟨y, e1, s, ?_, e3⟩
      have : Spec.segments (p :: q :: rest) = (p, q) :: Spec.segments (q :: rest) := rfl
      rw [this]; simp [e2]

theorem mapM_forall₂ {α β : Type} {f : α → Except PyErr β} {l : List α} {r : List β} (h : l.mapM f = .ok r) :
    List.Forall₂ (fun a b => f a = .ok b) l r := by
  induction l generalizing r with
  | nil =>
    rw [List.mapM_nil, pure_ok] at h
    subst h; exact List.Forall₂.nil
  | cons a l ih =>
    rw [List.mapM_cons, bind_ok] at h
    obtain ⟨b, h1, h⟩ := h
    rw [bind_ok] at h
    obtain ⟨t, h2, h⟩ := h
    rw [pure_ok] at h
    subst h
    exact List.Forall₂.cons h1 (ih h2)

/-- What is known of the positions on a loaded transect. -/
structure RealRow (c : RealCfg K) (shore cliff lagoon outlet : List (K × K)) (lagExt outExt : K × K) (x : K) (t : Transect K)
    (a b d : K) : Prop where
  hx : t.x = x
  h0 : t.y0 = fin a
  h3 : t.y3 = fin b
  h4 : t.y4 = fin d
  hshore : Spec.OnPolyline shore x a
  hcliff : Spec.HighestCrossing cliff x d
  hlagoon : if lagExt.1 < x ∧ x < lagExt.2 then Spec.HighestCrossing lagoon x b else b = d
  hz1 : t.z1 = nan
  hz2 : t.z2 = nan
  hchan : (∃ v, outExt.1 < x ∧ x < outExt.2 ∧ intersectPolyline outlet x = [fin v] ∧ t.y1 = fin (v + c.OutletWidth / 2) ∧
      t.y2 = fin (v - c.OutletWidth / 2) ∧ b < v - c.OutletWidth / 2 ∧ v + c.OutletWidth / 2 < a) ∨
    (t.y1 = nan ∧ t.y2 = nan ∧ (outExt.1 < x → x < outExt.2 → ∃ v, intersectPolyline outlet x = [fin v] ∧
      ¬ (b < v - c.OutletWidth / 2 ∧ v + c.OutletWidth / 2 < a)))

theorem highest_of_amax {pts : List (K × K)} {x : K} {v : Fl K} (h : amax (intersectPolyline pts x) = .ok v) :
    ∃ y, v = fin y ∧ Spec.HighestCrossing pts x y := by
  obtain ⟨y, rfl, h1, h2⟩ := amax_fin h (fun v hv => (intersect_fin pts x v hv).imp fun y hy => hy.1)
  refine ⟨y, rfl, ?_, ?_⟩
  · obtain ⟨y', e, s, hs⟩ := intersect_fin pts x _ h1
    cases e
    exact ⟨s, hs⟩
  · intro s hs hx y' hy
    exact h2 y' (intersect_mem hs hx hy)

theorem realRow_inv {c : RealCfg K} {shore cliff lagoon outlet : List (K × K)} {lagExt outExt : K × K} {x : K} {t : Transect K}
    (hsh : ∀ s ∈ Spec.segments shore, s.1.1 < s.2.1) (hfst : ∀ q, shore[0]? = some q → q.1 ≤ x)
    (hlst : ∀ q, shore.getLast? = some q → x < q.1)
    (h : realRow c shore cliff lagoon outlet lagExt outExt x = .ok t) :
    ∃ a b d, RealRow c shore cliff lagoon outlet lagExt outExt x t a b d := by
  unfold realRow at h
  simp only [bind_ok] at h
  obtain ⟨y0, h0, y4, h4, y3, h3, h⟩ := h
  obtain ⟨a, rfl, ha⟩ : ∃ a, y0 = fin a ∧ Spec.OnPolyline shore x a := by
    cases shore with
    | nil => cases h0
    | cons p rest =>
      obtain ⟨y, e1, s, e2, e3, _⟩ := interpScan_on rest p x hsh (hfst p rfl) hlst
      simp only [npInterp, List.map_cons] at h0
      rw [e1] at h0
      cases h0
      exact ⟨y, rfl, s, e2, e3⟩
  obtain ⟨d, rfl, hd⟩ := highest_of_amax h4
  obtain ⟨b, rfl, hb⟩ : ∃ b, y3 = fin b ∧ (if lagExt.1 < x ∧ x < lagExt.2 then Spec.HighestCrossing lagoon x b else b = d) := by
    by_cases hl : lagExt.1 < x ∧ x < lagExt.2
    · rw [if_pos hl] at h3
      obtain ⟨b, rfl, hb⟩ := highest_of_amax h3
      exact ⟨b, rfl, by rw [if_pos hl]; exact hb⟩
    · rw [if_neg hl] at h3
      cases h3
      exact ⟨d, rfl, by rw [if_neg hl]⟩
  refine ⟨a, b, d, ?_⟩
  by_cases ho : outExt.1 < x ∧ x < outExt.2
  · rw [if_pos ho] at h
    simp only [bind_ok, pyAssert_ok, ixGet_ok] at h
    obtain ⟨_, hl, v, hv, h⟩ := h
    obtain ⟨w, hw⟩ : ∃ w, intersectPolyline outlet x = [fin w] := by
      have hlen : (intersectPolyline outlet x).length = 1 := by simpa using hl
      obtain ⟨u, hu⟩ := List.length_eq_one_iff.mp hlen
      obtain ⟨y, rfl, _⟩ := intersect_fin outlet x u (by rw [hu]; simp)
      exact ⟨y, hu⟩
    rw [hw] at hv
    simp only [List.getElem?_cons_zero, Option.some.injEq] at hv
    subst hv
    simp only [isnan_fin, Bool.false_or, sub_fin, add_fin, blt_fin] at h
    by_cases hf : b < w - c.OutletWidth / 2 ∧ w + c.OutletWidth / 2 < a
    · rw [if_pos (by simpa using hf), pure_ok] at h
      subst h
      exact ⟨rfl, rfl, rfl, rfl, ha, hd, hb, rfl, rfl, Or.inl ⟨w, ho.1, ho.2, hw, rfl, rfl, hf.1, hf.2⟩⟩
    · rw [if_neg (by simpa using hf), pure_ok] at h
      subst h
      exact ⟨rfl, rfl, rfl, rfl, ha, hd, hb, rfl, rfl, Or.inr ⟨rfl, rfl, fun _ _ => ⟨w, hw, hf⟩⟩⟩
  · rw [if_neg ho, pure_ok] at h
    subst h
    exact ⟨rfl, rfl, rfl, rfl, ha, hd, hb, rfl, rfl, Or.inr ⟨rfl, rfl, fun h1 h2 => absurd ⟨h1, h2⟩ ho⟩⟩

/-! ### Masked assignment of bed levels -/

theorem assignBeds_get (crest : K) (l : List (Transect K × Bool)) : ∀ (bs : List K) (k : ℕ) (t : Transect K) (m : Bool), l[k]? = some (t, m) →
    (assignBeds crest l bs)[k]? = some (if m then (match bs[((l.take k).filter (·.2)).length]? with
      | some b => { t with z1 := fin b, z2 := fin crest }
      | none => t) else t) := by
  induction l with
  | nil => intro bs k t m h; simp at h
  | cons a l ih =>
    intro bs k t m h
    obtain ⟨ta, ma⟩ := a
    cases k with
    | zero =>
      simp only [List.getElem?_cons_zero, Option.some.injEq, Prod.mk.injEq] at h
      obtain ⟨rfl, rfl⟩ := h
      cases ma with
      | false => simp [assignBeds]
      | true => cases bs <;> simp [assignBeds]
    | succ k =>
      simp only [List.getElem?_cons_succ] at h
      cases ma with
      | false => simpa [assignBeds] using ih bs k t m h
      | true =>
        cases bs with
        | nil => simpa [assignBeds] using ih [] k t m h
        | cons b bs => simpa [assignBeds] using ih bs k t m h

theorem assignBeds_length (crest : K) (l : List (Transect K × Bool)) : ∀ bs : List K, (assignBeds crest l bs).length = l.length := by
  induction l with
  | nil => intro bs; rfl
  | cons a l ih =>
    intro bs
    obtain ⟨t, m⟩ := a
    cases m with
    | false => simp [assignBeds, ih]
    | true => cases bs <;> simp [assignBeds, ih]

/-! ### The loaded rows -/

section
variable [FloorRing K]

theorem orderShore_inv {pts r : List (K × K)} (h : orderShore pts = .ok r) :
    (r = pts ∨ r = pts.reverse) ∧ r ≠ [] ∧ ∀ s ∈ Spec.segments r, s.1.1 < s.2.1 := by
  unfold orderShore at h
  simp only [bind_ok, pure_ok, pyAssert_ok, ixGet_ok, pyGet_last] at h
  obtain ⟨a, ha, b, hb, _, h1, h2⟩ := h
  have hne : pts ≠ [] := by rintro rfl; simp at ha
  subst h2
  refine ⟨?_, ?_, ?_⟩
  · split <;> simp
  · split <;> simpa using hne
  · intro s hs
    rw [List.all_eq_true] at h1
    have := h1 s hs
    rw [decide_eq_true_eq] at this
    linarith

theorem realX_inv {Dx : K} {shore : List (K × K)} {xs : List K} (hd : 0 < Dx) (h : realX Dx shore = .ok xs) :
    ∃ a b, shore[0]? = some a ∧ shore.getLast? = some b ∧
      (∀ x, x ∈ xs ↔ (∃ k : ℤ, x = (k : K) * Dx) ∧ a.1 ≤ x ∧ x < b.1) ∧
      (∀ (i : ℕ) (x y : K), xs[i]? = some x → xs[i + 1]? = some y → y = x + Dx) := by
  unfold realX at h
  simp only [bind_ok, ixGet_ok, pyGet_last] at h
  obtain ⟨a, ha, b, hb, h⟩ := h
  rw [if_neg (ne_of_gt hd)] at h
  refine ⟨a, b, ha, hb, ?_, ?_⟩
  · obtain ⟨l, n, h1, h2, h3, h4, h5⟩ := arange_ok (a := (⌈a.1 / Dx⌉ : K) * Dx) (b := b.1) hd
    rw [h1] at h; cases h
    have hc : a.1 ≤ (⌈a.1 / Dx⌉ : K) * Dx := by rw [← div_le_iff₀ hd]; exact Int.le_ceil _
    intro x
    rw [List.mem_iff_getElem?]
    constructor
    · rintro ⟨i, hi⟩
      obtain ⟨hn, rfl⟩ := (h3 i x).mp hi
      refine ⟨⟨⌈a.1 / Dx⌉ + i, by push_cast; ring⟩, ?_, ?_⟩
      · have : (0 : K) ≤ (i : K) * Dx := by positivity
        linarith
      · by_contra hcon
        have := h5 i (not_lt.mp hcon)
        omega
    · rintro ⟨⟨k, rfl⟩, hk1, hk2⟩
      have hk : ⌈a.1 / Dx⌉ ≤ k := by rw [Int.ceil_le, div_le_iff₀ hd]; exact hk1
      obtain ⟨i, rfl⟩ : ∃ i : ℕ, k = ⌈a.1 / Dx⌉ + i := ⟨(k - ⌈a.1 / Dx⌉).toNat, by omega⟩
      refine ⟨i, (h3 i _).mpr ⟨?_, by push_cast; ring⟩⟩
      by_contra hcon
      have h6 : (n : K) ≤ (i : K) := by exact_mod_cast not_lt.mp hcon
      have h7 : (n : K) * Dx ≤ (i : K) * Dx := by nlinarith
      push_cast at hk2
      nlinarith
  · obtain ⟨l, n, h1, h2, h3, h4, h5⟩ := arange_ok (a := (⌈a.1 / Dx⌉ : K) * Dx) (b := b.1) hd
    rw [h1] at h; cases h
    intro i x y hx hy
    obtain ⟨_, rfl⟩ := (h3 i x).mp hx
    obtain ⟨_, rfl⟩ := (h3 (i + 1) y).mp hy
    push_cast; ring

/-- A row has an outlet channel. -/
def hasChan (t : Transect K) : Bool := !t.y1.isnan

/-- The steps of loading, after inversion. -/
structure RealInv (c : RealCfg K) (shore cliff lagoon outlet : List (K × K)) (ld : LoadOut K) (shore' : List (K × K)) (xs : List K)
    (lagExt outExt : K × K) (outlet' : List (K × K)) (raw : List (Transect K)) (masked : List (Transect K × Bool)) (toR : Bool)
    (e0 e1 : K) : Prop where
  hsh : orderShore shore = .ok shore'
  hxs : realX c.Dx shore' = .ok xs
  hle : extent lagoon = .ok lagExt
  hin : ∃ a b, xs[0]? = some a ∧ xs.getLast? = some b ∧ a < lagExt.1 ∧ lagExt.2 < b
  hoe : extent outlet = .ok outExt
  hol : orderOutlet outlet = .ok outlet'
  hraw : List.Forall₂ (fun x t => ∃ a b d, RealRow c shore' cliff lagoon outlet' lagExt outExt x t a b d) xs raw
  htoR : ∃ a b, outlet'[0]? = some a ∧ outlet'.getLast? = some b ∧ toR = decide (a.1 < b.1)
  hends : realEnds c outlet' toR raw = .ok (masked, e0, e1)
  hrows : ld.rows = (assignBeds c.BarrierElev masked
    (if toR then (linspace c.LagoonBed c.OutletBed (masked.filter (·.2)).length).dropLast
      else (linspace c.LagoonBed c.OutletBed (masked.filter (·.2)).length).dropLast.reverse)).map
        (fun t => { t with z0 := fin c.BarrierElev, z3 := fin c.LagoonBed })
  he0 : ld.EndX0 = fin e0
  he1 : ld.EndX1 = fin e1
  hew : ld.EndWidth = fin c.OutletWidth
  hez : ld.EndElev = fin c.OutletBed
  hcl : ld.Closed = false

theorem realLoadMod_inv {c : RealCfg K} {sl len : K} {shore cliff lagoon outlet : List (K × K)} {ld : LoadOut K} (hd : 0 < c.Dx)
    (h : realLoadMod c sl len shore cliff lagoon outlet = .ok ld) :
    ∃ shore' xs lagExt outExt outlet' raw masked toR e0 e1,
      RealInv c shore cliff lagoon outlet ld shore' xs lagExt outExt outlet' raw masked toR e0 e1 := by
  unfold realLoadMod at h
  simp only [bind_ok, pure_ok] at h
  obtain ⟨riv, _, ⟨rows, e0, e1⟩, hr, h⟩ := h
  unfold realRows at hr
  simp only [bind_ok, pure_ok, pyAssert_ok, ixGet_ok, pyGet_last] at hr
  obtain ⟨shore', h1, xs, h2, lagExt, h3, xN, h4, x0, h5, _, h6, outExt, h7, outlet', h8, raw, h9, oa, h10, ob, h11,
    ⟨masked, f0, f1⟩, h12, h13⟩ := hr
  simp only [Prod.mk.injEq] at h13
  obtain ⟨h13, rfl, rfl⟩ := h13
  rw [Bool.and_eq_true, decide_eq_true_eq, decide_eq_true_eq] at h6
  obtain ⟨_, _, hinc⟩ := orderShore_inv h1
  obtain ⟨a, b, ha, hb, hmem, _⟩ := realX_inv hd h2
  refine ⟨shore', xs, lagExt, outExt, outlet', raw, masked, _, f0, f1,
    ⟨h1, h2, h3, ⟨x0, xN, h5, h4, h6.2, h6.1⟩, h7, h8, ?_, ⟨oa, ob, h10, h11, rfl⟩, h12, ?_, ?_, ?_, ?_, ?_, ?_⟩⟩
  · have := mapM_forall₂ h9
    rw [List.forall₂_iff_get] at this ⊢
    refine ⟨this.1, fun i hi hi' => ?_⟩
    have hx := (hmem (xs.get ⟨i, hi⟩)).mp (List.get_mem _ _)
    apply realRow_inv hinc _ _ (this.2 i hi hi')
    · intro q hq; rw [ha] at hq; cases hq; exact hx.2.1
    · intro q hq; rw [hb] at hq; cases hq; exact hx.2.2
  · subst h; exact h13.symm
  all_goals (subst h; rfl)

theorem foldl_min_mem (l : List K) (a : K) : (l.foldl min a = a ∨ l.foldl min a ∈ l) ∧ l.foldl min a ≤ a ∧ ∀ z ∈ l, l.foldl min a ≤ z := by
  induction l generalizing a with
  | nil => simp
  | cons b l ih =>
    obtain ⟨h1, h2, h3⟩ := ih (min a b)
    simp only [List.foldl_cons]
    refine ⟨?_, le_trans h2 (min_le_left _ _), ?_⟩
    · rcases h1 with h1 | h1
      · rcases min_choice a b with h | h
        · left; rw [h1, h]
        · right; rw [h1, h]; simp
      · right; simp [h1]
    · intro z hz
      rcases List.mem_cons.mp hz with rfl | hz
      · exact le_trans h2 (min_le_right _ _)
      · exact h3 z hz

theorem foldl_max_mem (l : List K) (a : K) : (l.foldl max a = a ∨ l.foldl max a ∈ l) ∧ a ≤ l.foldl max a ∧ ∀ z ∈ l, z ≤ l.foldl max a := by
  induction l generalizing a with
  | nil => simp
  | cons b l ih =>
    obtain ⟨h1, h2, h3⟩ := ih (max a b)
    simp only [List.foldl_cons]
    refine ⟨?_, le_trans (le_max_left _ _) h2, ?_⟩
    · rcases h1 with h1 | h1
      · rcases max_choice a b with h | h
        · left; rw [h1, h]
        · right; rw [h1, h]; simp
      · right; simp [h1]
    · intro z hz
      rcases List.mem_cons.mp hz with rfl | hz
      · exact le_trans (le_max_right _ _) h2
      · exact h3 z hz

theorem realEnds_inv {c : RealCfg K} {outlet : List (K × K)} {toR : Bool} {raw : List (Transect K)} {masked : List (Transect K × Bool)} {e0 e1 : K}
    (h : realEnds c outlet toR raw = .ok (masked, e0, e1)) :
    (masked = raw.map (fun t => (t, hasChan t)) ∧ ∃ lo hi, (∃ t ∈ raw, hasChan t = true ∧ t.x = lo) ∧ (∃ t ∈ raw, hasChan t = true ∧ t.x = hi) ∧
      (∀ t ∈ raw, hasChan t = true → lo ≤ t.x ∧ t.x ≤ hi) ∧
      (if toR then e0 = lo ∧ e1 = hi + c.Dx / 2 else e0 = hi ∧ e1 = lo - c.Dx / 2)) ∨
    ((∀ t ∈ raw, t.y1 = nan) ∧ masked = raw.map (fun t => if t.x = e0 then (straightRow c t, true) else (t, false)) ∧
      (raw.filter (fun t => decide (t.x = e0))).length = 1 ∧
      (if toR then e0 = c.Dx * (⌊meanY outlet / c.Dx⌋ : K) ∧ e1 = e0 + c.Dx / 2
        else e0 = c.Dx * ((⌊meanY outlet / c.Dx⌋ : K) + 1) ∧ e1 = e0 - c.Dx / 2)) := by
  unfold realEnds at h
  simp only at h
  split at h
  · rename_i hm
    right
    simp only [bind_ok, pure_ok, pyAssert_ok, Prod.mk.injEq] at h
    obtain ⟨_, h1, h2, h3, h4⟩ := h
    have hnan : ∀ t ∈ raw, t.y1 = nan := by
      intro t ht
      by_contra hcon
      have : t.x ∈ ((raw.map (fun t => (t, !t.y1.isnan))).filter (·.2)).map (fun p => p.1.x) := by
        rw [List.mem_map]
        refine ⟨(t, true), ?_, rfl⟩
        rw [List.mem_filter, List.mem_map]
        refine ⟨⟨t, ht, ?_⟩, rfl⟩
        rw [(not_isnan_iff _).mpr hcon]; rfl
      rw [hm] at this
      simp at this
    refine ⟨hnan, ?_, ?_, ?_⟩
    · rw [← h2, ← h3]
    · rw [← h3]; simpa using h1
    · cases toR
      · simp only [Bool.false_eq_true, if_false] at h3 h4 ⊢
        exact ⟨h3.symm, by rw [← h4, h3]⟩
      · simp only [if_true] at h3 h4 ⊢
        exact ⟨h3.symm, by rw [← h4, h3]⟩
  · rename_i x xs hm
    left
    have hmem : ∀ z, z ∈ x :: xs ↔ ∃ t ∈ raw, hasChan t = true ∧ t.x = z := by
      intro z
      rw [← hm, List.mem_map]
      constructor
      · rintro ⟨⟨t, m⟩, ht, rfl⟩
        rw [List.mem_filter, List.mem_map] at ht
        obtain ⟨⟨t', ht', he⟩, hm'⟩ := ht
        simp only [Prod.mk.injEq] at he
        obtain ⟨rfl, rfl⟩ := he
        exact ⟨t', ht', hm', rfl⟩
      · rintro ⟨t, ht, hc, rfl⟩
        refine ⟨(t, true), ?_, rfl⟩
        rw [List.mem_filter, List.mem_map]
        exact ⟨⟨t, ht, by rw [Prod.mk.injEq]; exact ⟨rfl, hc⟩⟩, rfl⟩
    obtain ⟨a1, a2, a3⟩ := foldl_min_mem xs x
    obtain ⟨b1, b2, b3⟩ := foldl_max_mem xs x
    have key : ∃ lo hi, (∃ t ∈ raw, hasChan t = true ∧ t.x = lo) ∧ (∃ t ∈ raw, hasChan t = true ∧ t.x = hi) ∧
      (∀ t ∈ raw, hasChan t = true → lo ≤ t.x ∧ t.x ≤ hi) ∧ lo = xs.foldl min x ∧ hi = xs.foldl max x := by
      refine ⟨_, _, (hmem _).mp ?_, (hmem _).mp ?_, ?_, rfl, rfl⟩
      · rcases a1 with h | h <;> simp [h]
      · rcases b1 with h | h <;> simp [h]
      · intro t ht hc
        rcases List.mem_cons.mp ((hmem t.x).mpr ⟨t, ht, hc, rfl⟩) with h | h
        · rw [h]; exact ⟨a2, b2⟩
        · exact ⟨a3 _ h, b3 _ h⟩
    obtain ⟨lo, hi, k1, k2, k3, rfl, rfl⟩ := key
    cases toR
    · simp only [Bool.false_eq_true, if_false, ok_inj, Prod.mk.injEq] at h ⊢
      exact ⟨h.1.symm, _, _, k1, k2, k3, h.2.1.symm, h.2.2.symm⟩
    · simp only [if_true, ok_inj, Prod.mk.injEq] at h ⊢
      exact ⟨h.1.symm, _, _, k1, k2, k3, h.2.1.symm, h.2.2.symm⟩

theorem straightRow_fin {c : RealCfg K} {t : Transect K} {a b : K} (h0 : t.y0 = fin a) (h3 : t.y3 = fin b) :
    straightRow c t = { t with y1 := fin (min (a - c.SpitWidth) ((a + b) / 2 + c.OutletWidth / 2)),
                               y2 := fin (min (a - c.SpitWidth) ((a + b) / 2 + c.OutletWidth / 2) - c.OutletWidth),
                               y3 := fin (min (min (a - c.SpitWidth) ((a + b) / 2 + c.OutletWidth / 2) - c.OutletWidth + 1 / 1000) b) } := by
  unfold straightRow
  simp only [h0, h3, sub_fin, add_fin, div_fin _ _ (two_ne_zero : (2 : K) ≠ 0), pymin_fin]

section inv
variable {c : RealCfg K} {shore cliff lagoon outlet : List (K × K)} {ld : LoadOut K} {shore' : List (K × K)} {xs : List K}
  {lagExt outExt : K × K} {outlet' : List (K × K)} {raw : List (Transect K)} {masked : List (Transect K × Bool)} {toR : Bool} {e0 e1 : K}

theorem RealInv.raw_row (hI : RealInv c shore cliff lagoon outlet ld shore' xs lagExt outExt outlet' raw masked toR e0 e1) {k : ℕ} {t : Transect K}
    (h : raw[k]? = some t) : ∃ x a b d, xs[k]? = some x ∧ RealRow c shore' cliff lagoon outlet' lagExt outExt x t a b d := by
  have := hI.hraw
  rw [List.forall₂_iff_get] at this
  obtain ⟨hk, rfl⟩ := List.getElem?_eq_some_iff.mp h
  have hk' : k < xs.length := by rw [this.1]; exact hk
  obtain ⟨a, b, d, hr⟩ := this.2 k hk' hk
  exact ⟨xs[k], a, b, d, List.getElem?_eq_getElem hk', hr⟩

theorem RealInv.masked_row (hI : RealInv c shore cliff lagoon outlet ld shore' xs lagExt outExt outlet' raw masked toR e0 e1) {k : ℕ}
    {t : Transect K} {m : Bool} (h : masked[k]? = some (t, m)) :
    m = hasChan t ∧ t.z1 = nan ∧ t.z2 = nan ∧ ∃ x a b d r, xs[k]? = some x ∧ raw[k]? = some r ∧
      RealRow c shore' cliff lagoon outlet' lagExt outExt x r a b d ∧
      (t = r ∨ ((∀ u ∈ raw, u.y1 = nan) ∧ x = e0 ∧ t = straightRow c r)) := by
  rcases realEnds_inv hI.hends with ⟨hm, _⟩ | ⟨hn, hm, _, _⟩
  · rw [hm, List.getElem?_map, Option.map_eq_some_iff] at h
    obtain ⟨r, hr, he⟩ := h
    simp only [Prod.mk.injEq] at he
    obtain ⟨rfl, rfl⟩ := he
    obtain ⟨x, a, b, d, hx, hR⟩ := hI.raw_row hr
    exact ⟨rfl, hR.hz1, hR.hz2, x, a, b, d, r, hx, hr, hR, Or.inl rfl⟩
  · rw [hm, List.getElem?_map, Option.map_eq_some_iff] at h
    obtain ⟨r, hr, he⟩ := h
    obtain ⟨x, a, b, d, hx, hR⟩ := hI.raw_row hr
    by_cases hc : r.x = e0
    · rw [if_pos hc, Prod.mk.injEq] at he
      obtain ⟨rfl, rfl⟩ := he
      refine ⟨?_, ?_, ?_, x, a, b, d, r, hx, hr, hR, Or.inr ⟨hn, hR.hx ▸ hc, rfl⟩⟩
      · rw [straightRow_fin hR.h0 hR.h3]; rfl
      · exact hR.hz1
      · exact hR.hz2
    · rw [if_neg hc, Prod.mk.injEq] at he
      obtain ⟨rfl, rfl⟩ := he
      refine ⟨?_, hR.hz1, hR.hz2, x, a, b, d, r, hx, hr, hR, Or.inl rfl⟩
      have := hn r (List.mem_of_getElem? hr)
      simp [hasChan, this]

theorem RealInv.toR_iff (hI : RealInv c shore cliff lagoon outlet ld shore' xs lagExt outExt outlet' raw masked toR e0 e1) (hd : 0 < c.Dx) :
    toR = decide (e0 < e1) := by
  have h2 : 0 < c.Dx / 2 := by linarith
  rcases realEnds_inv hI.hends with ⟨_, lo, hi, ⟨t, ht, hc, rfl⟩, _, hb, he⟩ | ⟨_, _, _, he⟩
  · have := (hb t ht hc).2
    cases toR
    · simp only [Bool.false_eq_true, if_false] at he
      obtain ⟨rfl, rfl⟩ := he
      rw [eq_comm, decide_eq_false_iff_not]; linarith
    · simp only [if_true] at he
      obtain ⟨rfl, rfl⟩ := he
      rw [eq_comm, decide_eq_true_eq]; linarith
  · cases toR
    · simp only [Bool.false_eq_true, if_false] at he
      rw [eq_comm, decide_eq_false_iff_not, he.2]; linarith
    · simp only [if_true] at he
      rw [eq_comm, decide_eq_true_eq, he.2]; linarith

theorem linspace_get (a b : K) (n r : ℕ) (hr : r < n) : (linspace a b n).dropLast[r]? = some (a + (r : K) * ((b - a) / (n : K))) := by
  unfold linspace
  rw [List.getElem?_dropLast, List.length_map, List.length_range, if_pos (by omega), List.getElem?_map, List.getElem?_range (by omega)]
  rfl

theorem linspace_rev (a b : K) (n r : ℕ) (hr : r < n) :
    (linspace a b n).dropLast.reverse[r]? = some (a + ((n - 1 - r : ℕ) : K) * ((b - a) / (n : K))) := by
  have hl : (linspace a b n).dropLast.length = n := by simp [linspace]
  rw [List.getElem?_reverse (by omega), hl, linspace_get _ _ _ _ (by omega)]

theorem filter_length_map {α : Type} (p : α → Bool) (l : List α) : (l.filter p).length = l.countP p := List.countP_eq_length_filter.symm

/-- Each loaded row, with the number `j` of channel rows upstream of it. -/
theorem RealInv.final (hI : RealInv c shore cliff lagoon outlet ld shore' xs lagExt outExt outlet' raw masked toR e0 e1) (hd : 0 < c.Dx) {k : ℕ}
    {t : Transect K} (h : ld.rows[k]? = some t) : ∃ t0, masked[k]? = some (t0, hasChan t0) ∧ hasChan t = hasChan t0 ∧
      t = { t0 with z0 := fin c.BarrierElev, z3 := fin c.LagoonBed,
                    z1 := (if hasChan t0 then fin (c.LagoonBed +
                      ((if e0 < e1 then (ld.rows.take k).countP hasChan else (ld.rows.drop (k + 1)).countP hasChan : ℕ) : K) *
                        ((c.OutletBed - c.LagoonBed) / (ld.rows.countP hasChan : K))) else nan),
                    z2 := (if hasChan t0 then fin c.BarrierElev else nan) } := by
  have hlen : ld.rows.length = masked.length := by rw [hI.hrows, List.length_map, assignBeds_length]
  have hch : ∀ (k' : ℕ) (t' : Transect K), ld.rows[k']? = some t' → ∃ t0, masked[k']? = some (t0, hasChan t0) ∧ hasChan t' = hasChan t0 := by
    intro k' t' h'
    have hk : k' < masked.length := by rw [← hlen]; exact (List.getElem?_eq_some_iff.mp h').1
    obtain ⟨⟨t0, m⟩, hm⟩ : ∃ p, masked[k']? = some p := ⟨_, List.getElem?_eq_getElem hk⟩
    obtain ⟨rfl, _⟩ := hI.masked_row hm
    refine ⟨t0, hm, ?_⟩
    rw [hI.hrows, List.getElem?_map, assignBeds_get _ _ _ _ _ _ hm] at h'
    simp only [Option.map_some, Option.some.injEq] at h'
    subst h'
    unfold hasChan
    simp only
    split
    · split <;> rfl
    · rfl
  have hmap : ld.rows.map hasChan = masked.map (·.2) := by
    apply List.ext_getElem?
    intro i
    rw [List.getElem?_map, List.getElem?_map]
    by_cases hi : i < ld.rows.length
    · have h' : ld.rows[i]? = some ld.rows[i] := List.getElem?_eq_getElem hi
      obtain ⟨t0, h1, h2⟩ := hch i _ h'
      rw [h', h1, Option.map_some, Option.map_some, h2]
    · rw [List.getElem?_eq_none (by omega), List.getElem?_eq_none (by omega)]; rfl
  have hcnt : ∀ (f : List Bool → List Bool), ((f (masked.map (·.2))).countP id) = (f (ld.rows.map hasChan)).countP id := by
    intro f; rw [hmap]
  have c1 : (masked.filter (·.2)).length = ld.rows.countP hasChan := by
    have := hcnt id
    simp only [id_eq, List.countP_map, Function.id_comp] at this
    rw [filter_length_map, this]
  have c2 : ((masked.take k).filter (·.2)).length = (ld.rows.take k).countP hasChan := by
    have := hcnt (List.take k)
    rw [← List.map_take, ← List.map_take] at this
    simp only [List.countP_map, Function.id_comp] at this
    rw [filter_length_map, this]
  obtain ⟨t0, hm, hc⟩ := hch k t h
  refine ⟨t0, hm, hc, ?_⟩
  obtain ⟨_, hz1, hz2, _⟩ := hI.masked_row hm
  have h' := h
  rw [hI.hrows, List.getElem?_map, assignBeds_get _ _ _ _ _ _ hm] at h'
  simp only [Option.map_some, Option.some.injEq] at h'
  cases hcc : hasChan t0
  · simp only [hcc, Bool.false_eq_true, if_false] at h' ⊢
    rw [← h', hz1, hz2]
  · simp only [hcc, if_true] at h' ⊢
    rw [hcc] at hc
    -- the number of channel rows before, at and after `k`
    have hsplit : ld.rows.countP hasChan = (ld.rows.take k).countP hasChan + 1 + (ld.rows.drop (k + 1)).countP hasChan := by
      conv_lhs => rw [← List.take_append_drop k ld.rows]
      rw [List.countP_append]
      obtain ⟨hk, ht⟩ := List.getElem?_eq_some_iff.mp h
      rw [List.drop_eq_getElem_cons hk, ht, List.countP_cons_of_pos hc]
      omega
    rw [c1, c2] at h'
    have htr := hI.toR_iff hd
    by_cases he : e0 < e1
    · have : toR = true := by rw [htr]; simpa using he
      rw [this, if_pos rfl, linspace_get _ _ _ _ (by omega)] at h'
      simp only at h'
      rw [if_pos he, ← h']
    · have : toR = false := by rw [htr]; simpa using he
      rw [this] at h'
      simp only [Bool.false_eq_true, if_false] at h'
      rw [linspace_rev _ _ _ _ (by omega)] at h'
      simp only at h'
      rw [if_neg he, ← h']
      have : (List.countP hasChan ld.rows - 1 - List.countP hasChan (List.take k ld.rows)) = List.countP hasChan (List.drop (k + 1) ld.rows) := by omega
      rw [this]

end inv

end

end grid
end Verif.Model
