import Verif.Spec.Finer
import Verif.Props.LoadReal
import Verif.Props.Points

set_option autoImplicit false
set_option linter.unusedSectionVars false

/-! # C173: the same coast on a finer grid -/

namespace Verif.Props
open Verif Verif.Model Verif.Spec Fl

variable {K : Type} [Field K] [LinearOrder K] [IsStrictOrderedRing K] [FloorRing K]

theorem arange_finer {a b d : K} (hd : 0 < d) {n : ℕ} (hn : 0 < n) {l l' : List K} (h : arange a b d = .ok l) (h' : arange a b (d / n) = .ok l') : ∀ x ∈ l, x ∈ l' := by
  have hn0 : (0 : K) < n := by exact_mod_cast hn
  obtain ⟨m, N, e, -, h3, h4, h5⟩ := arange_ok (a := a) (b := b) hd
  obtain ⟨m', N', e', -, h3', h4', h5'⟩ := arange_ok (a := a) (b := b) (div_pos hd hn0)
  rw [h] at e
  rw [h'] at e'
  cases e
  cases e'
  intro x hx
  obtain ⟨i, hi⟩ := List.mem_iff_getElem?.mp hx
  obtain ⟨hlt, rfl⟩ := (h3 i x).mp hi
  refine List.mem_iff_getElem?.mpr ⟨i * n, (h3' _ _).mpr ⟨?_, by push_cast; field_simp⟩⟩
  by_contra hc
  have h6 : (N' : K) ≤ (i : K) * n := by exact_mod_cast not_lt.mp hc
  have h7 : (N' : K) * (d / n) ≤ (i : K) * d := by
    have := mul_le_mul_of_nonneg_right h6 (div_pos hd hn0).le
    have e : (i : K) * n * (d / n) = i * d := by field_simp
    linarith
  have := h5 i (by linarith)
  omega

theorem mem_arange {s : ℤ} {b d : K} (hd : 0 < d) {l : List K} (h : arange ((s : K) * d) b d = .ok l) (x : K) : x ∈ l ↔ ∃ k : ℤ, x = (k : K) * d ∧ s ≤ k ∧ (k : K) * d < b := by
  obtain ⟨m, N, e, -, h3, h4, h5⟩ := arange_ok (a := (s : K) * d) (b := b) hd
  rw [h] at e
  cases e
  rw [List.mem_iff_getElem?]
  constructor
  · rintro ⟨i, hi⟩
    obtain ⟨hlt, rfl⟩ := (h3 i x).mp hi
    have e : ((s + i : ℤ) : K) * d = (s : K) * d + (i : K) * d := by push_cast; ring
    refine ⟨s + i, e.symm, by omega, ?_⟩
    rw [e]
    by_contra hc
    have := h5 i (not_lt.mp hc)
    omega
  · rintro ⟨k, rfl, hk, hb⟩
    obtain ⟨i, rfl⟩ : ∃ i : ℕ, k = s + i := ⟨(k - s).toNat, by omega⟩
    have e : ((s + i : ℤ) : K) * d = (s : K) * d + (i : K) * d := by push_cast; ring
    refine ⟨i, (h3 _ _).mpr ⟨?_, e⟩⟩
    rw [e] at hb
    by_contra hc
    have h6 : (N : K) ≤ (i : K) := by exact_mod_cast not_lt.mp hc
    have := mul_le_mul_of_nonneg_right h6 hd.le
    linarith

theorem river_finer {lag slope len Dx : K} (hs : 0 < slope) (hd : 0 < Dx) {n : ℕ} (hn : 0 < n) {r r' : List (Fl K)} (h : riverElev lag slope len Dx = .ok r)
    (h' : riverElev lag slope len (Dx / n) = .ok r') : ∀ z ∈ r, z ∈ r' := by
  unfold riverElev at h h'
  simp only [bind_ok, pure_ok] at h h'
  obtain ⟨u, hu, rfl⟩ := h
  obtain ⟨u', hu', rfl⟩ := h'
  rw [← mul_div_assoc] at hu'
  have := arange_finer (mul_pos hs hd) hn hu hu'
  intro z hz
  simp only [List.mem_map, List.mem_reverse] at hz ⊢
  obtain ⟨x, hx, rfl⟩ := hz
  exact ⟨x, this x hx, rfl⟩

/-- **C173** (partial: with the default straight shoreline, between the ends of the shoreline as configured).  With `Dx` divided by a whole number every transect and every river section of
the coarser model is one of the finer model, all levels included.
Missing: the transects beyond the configured ends, which the finer model need not have (`C173_refuted_ends`). -/
theorem C173_partial_default {c : ShoreCfg K} {slope len : K} {n : ℕ} {ld ld' : LoadOut K} (hd : 0 < c.Dx) (hn : 0 < n) (hs : 0 < slope)
    (h : defaultLoad c slope len = .ok ld) (h' : defaultLoad { c with Dx := c.Dx / n } slope len = .ok ld') :
    (∀ t ∈ ld.rows, -c.ShorelineLengthLeft ≤ t.x → t.x ≤ c.ShorelineLengthRight → t ∈ ld'.rows) ∧ (∀ z ∈ ld.RiverElev, z ∈ ld'.RiverElev) := by
  have hn0 : (0 : K) < n := by exact_mod_cast hn
  have hdn := div_pos hd hn0
  unfold defaultLoad at h h'
  simp only [bind_ok, pure_ok] at h h'
  obtain ⟨riv, hr, rows, hrows, rfl⟩ := h
  obtain ⟨riv', hr', rows', hrows', rfl⟩ := h'
  refine ⟨?_, river_finer hs hd hn hr hr'⟩
  unfold defaultRows at hrows hrows'
  rw [if_neg hd.ne'] at hrows
  rw [if_neg hdn.ne'] at hrows'
  simp only [bind_ok, pure_ok] at hrows hrows'
  obtain ⟨xs, hx, rfl⟩ := hrows
  obtain ⟨xs', hx', rfl⟩ := hrows'
  intro t ht h1 h2
  obtain ⟨x, hxm, rfl⟩ := List.mem_map.mp ht
  have ex : (defaultRow c x).x = x := by unfold defaultRow; split <;> rfl
  rw [ex] at h1 h2
  obtain ⟨k, rfl, -, -⟩ := (mem_arange hd hx x).mp hxm
  have e : ((k * n : ℤ) : K) * (c.Dx / n) = (k : K) * c.Dx := by push_cast; field_simp
  refine List.mem_map.mpr ⟨(k : K) * c.Dx, (mem_arange hdn hx' _).mpr ⟨k * n, e.symm, ?_, ?_⟩, rfl⟩
  · have : (⌊-c.ShorelineLengthLeft / (c.Dx / n)⌋ : K) ≤ ((k * n : ℤ) : K) := by
      refine (Int.floor_le _).trans ?_
      rw [div_le_iff₀ hdn, e]
      exact h1
    exact_mod_cast this
  · rw [e]
    show _ < c.ShorelineLengthRight + c.Dx / n
    linarith

theorem mapM_mem {α β : Type} {f : α → Except PyErr β} {l : List α} {r : List β} (h : l.mapM f = .ok r) : (∀ b ∈ r, ∃ a ∈ l, f a = .ok b) ∧ (∀ a ∈ l, ∃ b ∈ r, f a = .ok b) := by
  have := mapM_forall₂ h
  rw [List.forall₂_iff_get] at this
  constructor
  · intro b hb
    obtain ⟨i, hi, rfl⟩ := List.getElem_of_mem hb
    exact ⟨l[i]'(by omega), List.getElem_mem _, this.2 i (by omega) hi⟩
  · intro a ha
    obtain ⟨i, hi, rfl⟩ := List.getElem_of_mem ha
    exact ⟨r[i]'(by omega), List.getElem_mem _, this.2 i hi (by omega)⟩

/-- What is left of a transect when the levels of its channel are set. -/
theorem mem_assignBeds (crest : K) : ∀ (m : List (Transect K × Bool)) (bs : List K), (m.filter (·.2)).length ≤ bs.length →
    (∀ t ∈ assignBeds crest m bs, ∃ u b, (u, b) ∈ m ∧ ∃ v w, t = { u with z1 := v, z2 := w } ∧ w = if b then fin crest else u.z2) ∧
    (∀ u b, (u, b) ∈ m → ∃ v w, { u with z1 := v, z2 := w } ∈ assignBeds crest m bs ∧ w = if b then fin crest else u.z2) := by
  intro m
  induction m with
  | nil => intro bs _; simp [assignBeds]
  | cons p r ih =>
    intro bs hl
    obtain ⟨u0, b0⟩ := p
    cases b0 with
    | false =>
      obtain ⟨i1, i2⟩ := ih bs (by simpa using hl)
      refine ⟨?_, ?_⟩
      · intro t ht
        rcases List.mem_cons.mp ht with rfl | ht
        · exact ⟨t, false, List.mem_cons_self, t.z1, t.z2, rfl, rfl⟩
        · obtain ⟨u, b, hm, h⟩ := i1 t ht
          exact ⟨u, b, List.mem_cons_of_mem _ hm, h⟩
      · intro u b hm
        rcases List.mem_cons.mp hm with he | hm
        · cases he
          exact ⟨u0.z1, u0.z2, List.mem_cons_self, rfl⟩
        · obtain ⟨v, w, h1, h2⟩ := i2 u b hm
          exact ⟨v, w, List.mem_cons_of_mem _ h1, h2⟩
    | true =>
      cases bs with
      | nil => simp at hl
      | cons z bs =>
        obtain ⟨i1, i2⟩ := ih bs (by simpa using hl)
        refine ⟨?_, ?_⟩
        · intro t ht
          rcases List.mem_cons.mp ht with rfl | ht
          · exact ⟨u0, true, List.mem_cons_self, _, _, rfl, rfl⟩
          · obtain ⟨u, b, hm, h⟩ := i1 t ht
            exact ⟨u, b, List.mem_cons_of_mem _ hm, h⟩
        · intro u b hm
          rcases List.mem_cons.mp hm with he | hm
          · cases he
            exact ⟨_, _, List.mem_cons_self, rfl⟩
          · obtain ⟨v, w, h1, h2⟩ := i2 u b hm
            exact ⟨v, w, List.mem_cons_of_mem _ h1, h2⟩

theorem beds_enough (a b : K) (m : List (Transect K × Bool)) (toR : Bool) : (m.filter (·.2)).length ≤
    (if toR then (linspace a b (m.filter (·.2)).length).dropLast else (linspace a b (m.filter (·.2)).length).dropLast.reverse).length := by
  cases toR <;> simp [linspace]

theorem realX_finer {Dx : K} (hd : 0 < Dx) {n : ℕ} (hn : 0 < n) {shore : List (K × K)} {xs xs' : List K} (h : realX Dx shore = .ok xs) (h' : realX (Dx / n) shore = .ok xs') :
    ∀ x ∈ xs, x ∈ xs' := by
  have hn0 : (0 : K) < n := by exact_mod_cast hn
  obtain ⟨a, b, ha, hb, hm, -⟩ := realX_inv hd h
  obtain ⟨a', b', ha', hb', hm', -⟩ := realX_inv (div_pos hd hn0) h'
  rw [ha] at ha'
  rw [hb] at hb'
  cases ha'
  cases hb'
  intro x hx
  obtain ⟨⟨k, hk⟩, h1, h2⟩ := (hm x).mp hx
  exact (hm' x).mpr ⟨⟨k * n, by rw [hk]; push_cast; field_simp⟩, h1, h2⟩

/-- The outlet and its rows where the drawn outlet crosses a transect. -/
theorem ends_rows {c : RealCfg K} {outlet : List (K × K)} {toR : Bool} {rows : List (Transect K)} {m : List (Transect K × Bool)} {e0 e1 : K} (h : realEnds c outlet toR rows = .ok (m, e0, e1))
    (hne : ∃ t ∈ rows, t.y1.isnan = false) : m = rows.map (fun t => (t, !t.y1.isnan)) := by
  rcases realEnds_inv h with ⟨hm, -⟩ | ⟨hn, -⟩
  · exact hm
  · obtain ⟨t, ht, hx⟩ := hne
    rw [hn t ht] at hx
    cases hx

/-- **C173** (partial: with shoreline, lagoon, cliff and outlet from the map, and an outlet that crosses two transects or more of the coarser grid).  With `Dx` divided by a whole number every
transect of the coarser model is in the finer model, with the same features, and so is every river section.
Missing: outlets across one transect or none (`C173_refuted`). -/
theorem C173_partial_map {c : RealCfg K} {slope len : K} {n : ℕ} {shore cliff lagoon outlet : List (K × K)} {ld ld' : LoadOut K} (hd : 0 < c.Dx) (hn : 0 < n) (hs : 0 < slope)
    (h : realLoadMod c slope len shore cliff lagoon outlet = .ok ld) (h' : realLoadMod { c with Dx := c.Dx / n } slope len shore cliff lagoon outlet = .ok ld')
    (h2 : 2 ≤ (channelRows ld.rows).length) :
    (∀ t ∈ ld.rows, ∃ t' ∈ ld'.rows, SameFeatures t t') ∧ (∀ z ∈ ld.RiverElev, z ∈ ld'.RiverElev) := by
  unfold realLoadMod at h h'
  simp only [bind_ok, pure_ok] at h h'
  obtain ⟨riv, hr, ⟨rr, e0, e1⟩, hrows, rfl⟩ := h
  obtain ⟨riv', hr', ⟨rr', e0', e1'⟩, hrows', rfl⟩ := h'
  refine ⟨?_, river_finer hs hd hn hr hr'⟩
  simp only at h2 ⊢
  unfold realRows at hrows hrows'
  simp only [bind_ok, pure_ok] at hrows hrows'
  obtain ⟨sh, hsh, xs, hx, le, hl, xN, -, x0, -, u, -, oe, ho, out, hout, rows, hrw, oa, hoa, ob, hob, ⟨m, f0, f1⟩, hm, hfin⟩ := hrows
  obtain ⟨sh', hsh', xs', hx', le', hl', xN', -, x0', -, u', -, oe', ho', out', hout', rows', hrw', oa', hoa', ob', hob', ⟨m', f0', f1'⟩, hm', hfin'⟩ := hrows'
  rw [hsh, ok_inj] at hsh'
  rw [hl, ok_inj] at hl'
  rw [ho, ok_inj] at ho'
  rw [hout, ok_inj] at hout'
  subst hsh' hl' ho' hout'
  have e1 := (Prod.ext_iff.mp hfin).1
  have e2 := (Prod.ext_iff.mp hfin').1
  simp only at e1 e2
  subst e1 e2
  have hsub : ∀ t ∈ rows, t ∈ rows' := by
    intro t ht
    obtain ⟨x, hxm, ht'⟩ := (mapM_mem hrw).1 t ht
    obtain ⟨t', htm, ht''⟩ := (mapM_mem hrw').2 x (realX_finer hd hn hx hx' x hxm)
    have : Except.ok t' = (Except.ok t : Except PyErr (Transect K)) := ht''.symm.trans ht'
    cases this
    exact htm
  have hne : ∃ t ∈ rows, t.y1.isnan = false := by
    by_contra hc
    push Not at hc
    have hnil : ((rows.map (fun t => (t, !t.y1.isnan))).filter (·.2)).map (fun p => p.1.x) = [] := by
      rw [List.map_eq_nil_iff, List.filter_eq_nil_iff]
      intro p hp
      obtain ⟨t, ht, rfl⟩ := List.mem_map.mp hp
      simpa using hc t ht
    have h1 := straight_single hm hnil
    rw [filter_y1_length] at h2
    simp only [List.map_map] at h2
    have : (fun t : Transect K => t.y1) ∘ (fun t : Transect K => { t with z0 := fin c.BarrierElev, z3 := fin c.LagoonBed }) = (fun t => t.y1) := rfl
    rw [this, assignBeds_y1, List.filter_map, List.length_map] at h2
    exact absurd (le_trans h2 h1) (by norm_num)
  have em := ends_rows hm hne
  have em' := ends_rows hm' (hne.imp fun t ht => ⟨hsub t ht.1, ht.2⟩)
  intro t ht
  obtain ⟨t1, ht1, rfl⟩ := List.mem_map.mp ht
  obtain ⟨u1, b, hub, v, w, rfl, hw⟩ := (mem_assignBeds _ _ _ (beds_enough _ _ _ _)).1 t1 ht1
  rw [em] at hub
  obtain ⟨u2, hu2, heq⟩ := List.mem_map.mp hub
  cases heq
  obtain ⟨v', w', hmem, hw'⟩ := (mem_assignBeds c.BarrierElev m' _ (beds_enough c.LagoonBed c.OutletBed m' (decide (oa'.1 < ob'.1)))).2 u1 (!u1.y1.isnan)
    (by rw [em']; exact List.mem_map.mpr ⟨u1, hsub _ hu2, rfl⟩)
  refine ⟨_, List.mem_map.mpr ⟨_, hmem, rfl⟩, rfl, rfl, rfl, rfl, rfl, rfl, rfl, ?_, rfl⟩
  show w' = w
  rw [hw, hw']

/-- The sample of C85, with transects every 10 m and every 5 m. -/
example : okAnd (realLoadMod rlCfg (1 / 100) 100 rlShore rlCliff rlLagoon rlOutlet) (fun ld => decide (2 ≤ (channelRows ld.rows).length ∧ 0 < rlCfg.Dx)) = true ∧
    okAnd (realLoadMod { rlCfg with Dx := rlCfg.Dx / (2 : ℕ) } (1 / 100) 100 rlShore rlCliff rlLagoon rlOutlet)
      (fun ld => decide ((channelRows ld.rows).map (·.x) = [10, 15, 20, 25, 30, 35])) = true := by
  constructor <;> decide +kernel

/-- C173 is false of the code: an outlet between X = 3 and X = 7 crosses no transect of a grid of 10 m, which has its only channel at X = -20, where a grid of 5 m has none. -/
theorem C173_refuted : ∃ (ld ld' : LoadOut ℚ), realLoadMod rlCfg (1 / 100) 100 rlShore rlCliff rlLagoon [(3, -35), (7, 5)] = .ok ld ∧
    realLoadMod { rlCfg with Dx := rlCfg.Dx / (2 : ℕ) } (1 / 100) 100 rlShore rlCliff rlLagoon [(3, -35), (7, 5)] = .ok ld' ∧
    (∃ t ∈ ld.rows, t.x = -20 ∧ t.y1 ≠ nan) ∧ (∀ t ∈ ld'.rows, t.x = -20 → t.y1 = nan) ∧ ¬ ∀ t ∈ ld.rows, ∃ t' ∈ ld'.rows, SameFeatures t t' := by
  obtain ⟨ld, h1, h2⟩ := okAnd_iff.mp (show okAnd (realLoadMod rlCfg (1 / 100) 100 rlShore rlCliff rlLagoon [(3, -35), (7, 5)])
    (fun ld => decide (∃ t ∈ ld.rows, t.x = -20 ∧ t.y1 ≠ nan)) = true by decide +kernel)
  obtain ⟨ld', h1', h2'⟩ := okAnd_iff.mp (show okAnd (realLoadMod { rlCfg with Dx := rlCfg.Dx / (2 : ℕ) } (1 / 100) 100 rlShore rlCliff rlLagoon [(3, -35), (7, 5)])
    (fun ld => decide (∀ t ∈ ld.rows, t.x = -20 → t.y1 = nan)) = true by decide +kernel)
  rw [decide_eq_true_eq] at h2 h2'
  refine ⟨ld, ld', h1, h1', h2, h2', ?_⟩
  intro hall
  obtain ⟨t, ht, hx, hy⟩ := h2
  obtain ⟨t', ht', e1, -, e2, -⟩ := hall t ht
  exact hy (e2 ▸ h2' t' ht' (e1.trans hx))

def stCfg : ShoreCfg ℚ := { ShorelineLengthLeft := 95, ShorelineLengthRight := 95, BeachWidth := 60, Dx := 10, SpitWidth := 5, RiverWidth := 20, OutletWidth := 6, OutletBed := 0,
                            LagoonBed := -1, BarrierElev := 3 }

/-- C173 is false also with the default shoreline: at its ends, the coarser model has transects beyond the configured length. -/
theorem C173_refuted_ends : ∃ (ld ld' : LoadOut ℚ), defaultLoad stCfg (1 / 100) 100 = .ok ld ∧ defaultLoad { stCfg with Dx := stCfg.Dx / (2 : ℕ) } (1 / 100) 100 = .ok ld' ∧
    (∃ t ∈ ld.rows, t.x = -100) ∧ (∃ t ∈ ld.rows, t.x = 100) ∧ (∀ t ∈ ld'.rows, -95 ≤ t.x ∧ t.x ≤ 95) ∧ ¬ ∀ t ∈ ld.rows, ∃ t' ∈ ld'.rows, SameFeatures t t' := by
  obtain ⟨ld, h1, h2⟩ := okAnd_iff.mp (show okAnd (defaultLoad stCfg (1 / 100) 100) (fun ld => decide ((∃ t ∈ ld.rows, t.x = -100) ∧ (∃ t ∈ ld.rows, t.x = 100))) = true by decide +kernel)
  obtain ⟨ld', h1', h2'⟩ := okAnd_iff.mp (show okAnd (defaultLoad { stCfg with Dx := stCfg.Dx / (2 : ℕ) } (1 / 100) 100) (fun ld => decide (∀ t ∈ ld.rows, -95 ≤ t.x ∧ t.x ≤ 95)) = true
    by decide +kernel)
  rw [decide_eq_true_eq] at h2 h2'
  refine ⟨ld, ld', h1, h1', h2.1, h2.2, h2', ?_⟩
  intro hall
  obtain ⟨t, ht, hx⟩ := h2.1
  obtain ⟨t', ht', e1, -⟩ := hall t ht
  have := (h2' t' ht').1
  rw [e1, hx] at this
  norm_num at this

end Verif.Props
