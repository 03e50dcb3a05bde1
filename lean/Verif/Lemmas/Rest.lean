import Verif.Spec.Rest
import Verif.Lemmas.MorRel

set_option autoImplicit false
set_option linter.unusedSectionVars false

/-! # A coast at rest stays as it is -/

namespace Verif.Model
open Verif Fl Spec List

variable {K : Type} [Field K] [LinearOrder K] [IsStrictOrderedRing K]

theorem add_fin_zero (x : Fl K) : x + fin 0 = x := by
  cases x <;> first | rfl | simp

theorem zero_div_fin {x : K} (h : x ≠ 0) : (fin 0 / fin x : Fl K) = fin 0 := by
  rw [div_fin _ _ h, zero_div]

theorem scatter_zero : ∀ {l l' : List (Fl K)} {ixs : List ℕ} {vs : List (Fl K)}, scatter (fun old v => old + v) l ixs vs = .ok l' →
    (∀ v ∈ vs, v = fin 0) → l' = l := by
  intro l l' ixs
  induction ixs generalizing l with
  | nil =>
    intro vs h _
    cases vs with
    | nil => cases h; rfl
    | cons => cases h
  | cons i is ih =>
    intro vs h hv
    cases vs with
    | nil => cases h
    | cons v vs =>
      unfold scatter at h
      obtain ⟨old, ho, h⟩ := bind_ok.mp h
      rw [ixGet_ok] at ho
      have := ih h (fun v hv' => hv v (mem_cons_of_mem _ hv'))
      rw [this, hv v mem_cons_self, add_fin_zero]
      obtain ⟨hi, e⟩ := List.getElem?_eq_some_iff.mp ho
      rw [← e, List.set_getElem_self]

theorem addCol_zero {l l' : List (Fl K)} {ixs : List ℕ} {ss : List (Sec K)} {rs : List (Transect K)} {f : Sec K → Transect K → Fl K}
    (h : addCol l ixs ss rs f = .ok l') (hf : ∀ s ∈ ss, ∀ r ∈ rs, f s r = fin 0) : l' = l := by
  unfold addCol at h
  split at h
  · cases h
  · refine scatter_zero h ?_
    intro v hv
    rw [mem_iff_getElem?] at hv
    obtain ⟨k, hk⟩ := hv
    rw [getElem?_zipWith] at hk
    cases hs : ss[k]? with
    | none => rw [hs] at hk; cases hk
    | some s =>
      cases hr : rs[k]? with
      | none => rw [hs, hr] at hk; cases hk
      | some r =>
        rw [hs, hr] at hk
        simp only [Option.some.injEq] at hk
        rw [← hk]
        exact hf s (mem_of_getElem? hs) r (mem_of_getElem? hr)

/-- All volume changes are zero. -/
def QuietSec (s : Sec K) : Prop := s.dvol = fin 0

theorem QuietSec.ero {s : Sec K} (h : QuietSec s) : s.ero = fin 0 := by
  unfold Sec.ero; rw [h]; simp

theorem QuietSec.bedEro {s : Sec K} (h : QuietSec s) : s.bedEro = fin 0 := by
  unfold Sec.bedEro; rw [h.ero]; split <;> simp

theorem QuietSec.bankEro {s : Sec K} (h : QuietSec s) : s.bankEro = fin 0 := by
  unfold Sec.bankEro; rw [h.ero]; split <;> simp

theorem QuietSec.bedDep {s : Sec K} (h : QuietSec s) : s.bedDep = fin 0 := by
  unfold Sec.bedDep; rw [h]; simp

theorem zipWith_zero {l l' : List (Fl K)} (h : ∀ q ∈ l, q = fin 0) (h' : ∀ q ∈ l', q = fin 0) : ∀ q ∈ zipWith (· - ·) l l', q = fin 0 := by
  intro q hq
  rw [mem_iff_getElem?] at hq
  obtain ⟨k, hk⟩ := hq
  rw [getElem?_zipWith] at hk
  cases hs : l[k]? with
  | none => rw [hs] at hk; cases hk
  | some s =>
    cases hr : l'[k]? with
    | none => rw [hs, hr] at hk; cases hk
    | some r =>
      rw [hs, hr] at hk
      simp only [Option.some.injEq] at hk
      rw [← hk, h s (mem_of_getElem? hs), h' r (mem_of_getElem? hr)]
      simp

theorem zipSec_quiet {l : List (Fl K)} (h : ∀ q ∈ l, q = fin 0) (l' : List (Bool × ℕ)) :
    ∀ s ∈ zipWith (fun d (p : Bool × ℕ) => (⟨d, p.1, p.2⟩ : Sec K)) l l', QuietSec s := by
  intro s hs
  obtain ⟨k, hk⟩ := mem_iff_getElem?.mp hs
  rw [getElem?_zipWith] at hk
  split at hk
  · rename_i d p hd hp
    simp only [Option.some.injEq] at hk
    rw [← hk]
    exact h d (mem_of_getElem? hd)
  · cases hk

theorem sections_quiet {pp : PhysPars K} {a : MorIn K} {ss : List (Sec K)} (h : sections pp a = .ok ss) (hb : ∀ q ∈ a.Bedload, q = fin 0) :
    ∀ s ∈ ss, QuietSec s := by
  unfold sections at h
  simp only at h
  split at h
  · split at h
    · cases h
    · rw [ok_inj] at h
      subst h
      refine zipSec_quiet (zipWith_zero hb ?_) _
      intro q hq
      rcases mem_append.mp hq with hq | hq
      · exact hb q (mem_of_mem_tail hq)
      · exact mem_singleton.mp hq
  · split at h
    · cases h
    · rw [ok_inj] at h
      subst h
      exact zipSec_quiet (zipWith_zero (fun q hq => hb q (mem_of_mem_dropLast hq)) (fun q hq => hb q (mem_of_mem_tail hq))) _

/-- All rates are zero. -/
structure ZeroRates (n : ℕ) (R : Rates K) : Prop where
  y0 : R.y0 = replicate n (fin 0)
  y1 : R.y1 = replicate n (fin 0)
  y2 : R.y2 = replicate n (fin 0)
  y3 : R.y3 = replicate n (fin 0)
  y4 : R.y4 = replicate n (fin 0)
  z0 : R.z0 = replicate n (fin 0)
  z1 : R.z1 = replicate n (fin 0)
  z3 : R.z3 = replicate n (fin 0)
  riv : ∀ q ∈ R.riv, q = fin 0
  endW : R.endW = fin 0
  endZ : R.endZ = fin 0
  endX : R.endX = fin 0

/-- What the step needs to know of the cells. -/
structure TidyCell (pp : PhysPars K) (c : Cell K) : Prop where
  t : Tidy pp c.t
  sfh : ∃ s : K, c.sfh = fin s ∧ s ≠ 0
  cw : ∃ s : K, c.cw = fin s ∧ s ≠ 0
  bh : ∃ s : K, c.bh = fin s ∧ s ≠ 0
  op : c.op = !c.t.y1.isnan

theorem mkCell_tidy {pp : PhysPars K} (a : MorIn K) (i : ℕ) {r : Transect K} (h : Tidy pp r) : TidyCell pp (mkCell pp a i r) where
  t := h
  sfh := by
    cases h with
    | plain x y0 y3 y4 z0 z3 y2 z1 z2 hy3 hy4 hz3 hb hs => exact ⟨_, rfl, ne_of_gt hs⟩
    | channel x y0 y1 y2 y3 y4 z0 z1 z2 z3 hy1 hy2 hy3 hy4 hz1 hz2 hz3 hb hs => exact ⟨_, rfl, ne_of_gt hs⟩
  cw := by
    cases h with
    | plain x y0 y3 y4 z0 z3 y2 z1 z2 hy3 hy4 hz3 hb hs => exact ⟨y0 - y3, by simp [mkCell], ne_of_gt (sub_pos.mpr hy3)⟩
    | channel x y0 y1 y2 y3 y4 z0 z1 z2 z3 hy1 hy2 hy3 hy4 hz1 hz2 hz3 hb hs => exact ⟨y0 - y1, by simp [mkCell], ne_of_gt (sub_pos.mpr hy1)⟩
  bh := by
    cases h with
    | plain x y0 y3 y4 z0 z3 y2 z1 z2 hy3 hy4 hz3 hb hs => exact ⟨z0 - z3, by simp [mkCell], ne_of_gt (sub_pos.mpr hz3)⟩
    | channel x y0 y1 y2 y3 y4 z0 z1 z2 z3 hy1 hy2 hy3 hy4 hz1 hz2 hz3 hb hs =>
      exact ⟨z0 - z1, by simp [mkCell], ne_of_gt (sub_pos.mpr (lt_of_lt_of_le hz1 hz2))⟩
  op := rfl

section
variable {pp : PhysPars K} {a : MorIn K}

theorem map_zero {α : Type} {l : List α} {f : α → Fl K} {n : ℕ} (hn : l.length = n) (h : ∀ x ∈ l, f x = fin 0) : l.map f = replicate n (fin 0) := by
  rw [List.eq_replicate_iff]
  refine ⟨by simpa using hn, fun b hb => ?_⟩
  obtain ⟨x, hx, rfl⟩ := mem_map.mp hb
  exact h x hx

theorem riverRates_rest (hp : RestPars pp a.Dx) (ht : ∀ t ∈ a.rows, Tidy pp t) (hb : ∀ q ∈ a.Bedload, q = fin 0)
    (hon : ∀ i ∈ a.online, ∀ t, a.rows[i]? = some t → (t.y4 <? t.y3) = true)
    (hout : a.Closed = false → ∀ i ∈ a.outlet, ∀ t, a.rows[i]? = some t → t.y1.isnan = false)
    (he : a.Closed = false → TidyCoast pp a.rows a.EndX1 a.EndWidth a.EndElev)
    {cells : List (Cell K)} (hc : ∀ c ∈ cells, TidyCell pp c) (hl : cells.length = a.rows.length) {R : Rates K}
    (h : riverRates pp a cells = .ok R) : ZeroRates a.rows.length R := by
  unfold riverRates at h
  obtain ⟨ss, hss, h⟩ := bind_ok.mp h
  have hq := sections_quiet hss hb
  obtain ⟨on, hong, h⟩ := bind_ok.mp h
  have honr : ∀ r ∈ on, Tidy pp r ∧ (r.y4 <? r.y3) = true := by
    intro r hr
    obtain ⟨k, hk⟩ := mem_iff_getElem?.mp hr
    rw [gather_getElem? hong] at hk
    obtain ⟨i, hi, hri⟩ := Option.bind_eq_some_iff.mp hk
    exact ⟨ht r (mem_of_getElem? hri), hon i (mem_of_getElem? hi) r hri⟩
  have hDx := ne_of_gt hp.Dx
  have hfil : ∀ k : ℕ, ∀ s ∈ ss.filter (·.flag == k), QuietSec s := fun k s hs => hq s (mem_of_mem_filter hs)
  have hriv : ∀ q ∈ (ss.filter (·.flag == 0)).map (fun s => (s.bedDep - s.ero) / (fin pp.RiverWidth * fin a.Dx)), q = fin 0 := by
    intro q hq'
    obtain ⟨s, hs, rfl⟩ := mem_map.mp hq'
    rw [(hfil 0 s hs).bedDep, (hfil 0 s hs).ero, sub_fin, sub_zero, mul_fin]
    exact zero_div_fin (mul_ne_zero (ne_of_gt hp.river) hDx)
  obtain ⟨z3, h3, h⟩ := bind_ok.mp h
  obtain ⟨y3, h3', h⟩ := bind_ok.mp h
  obtain ⟨y4, h4, h⟩ := bind_ok.mp h
  have e3 : z3 = _ := addCol_zero h3 (fun s hs r hr => by
    obtain ⟨hr1, hr2⟩ := honr r hr
    simp only [(hfil 1 s hs).bedDep, (hfil 1 s hs).bedEro, sub_fin, sub_zero]
    cases hr1 with
    | plain x y0 y3 y4 z0 z3 y2 z1 z2 hy3 hy4 hz3 hb hs =>
      rw [blt_fin, decide_eq_true_eq] at hr2
      simp only [sub_fin, mul_fin]
      exact zero_div_fin (mul_ne_zero (sub_ne_zero.mpr (ne_of_gt hr2)) hDx)
    | channel x y0 y1 y2 y3 y4 z0 z1 z2 z3 hy1 hy2 hy3 hy4 hz1 hz2 hz3 hb hs =>
      rw [blt_fin, decide_eq_true_eq] at hr2
      simp only [sub_fin, mul_fin]
      exact zero_div_fin (mul_ne_zero (sub_ne_zero.mpr (ne_of_gt hr2)) hDx))
  have e3' : y3 = _ := addCol_zero h3' (fun s hs r hr => by
    obtain ⟨hr1, hr2⟩ := honr r hr
    simp only [(hfil 1 s hs).bankEro, zero_div_fin (K := K) two_ne_zero]
    cases hr1 with
    | plain x y0 y3 y4 z0 z3 y2 z1 z2 hy3 hy4 hz3 hb hs =>
      simp only [lagBank, isnan_nan, if_true, sub_fin, mul_fin]
      exact zero_div_fin (mul_ne_zero (sub_ne_zero.mpr (ne_of_gt hz3)) hDx)
    | channel x y0 y1 y2 y3 y4 z0 z1 z2 z3 hy1 hy2 hy3 hy4 hz1 hz2 hz3 hb hs =>
      simp only [lagBank, isnan_fin, Bool.false_eq_true, if_false, sub_fin, mul_fin]
      exact zero_div_fin (mul_ne_zero (sub_ne_zero.mpr (ne_of_gt hz3)) hDx))
  have e4 : y4 = _ := addCol_zero h4 (fun s hs r hr => by
    obtain ⟨hr1, hr2⟩ := honr r hr
    simp only [(hfil 1 s hs).bankEro, zero_div_fin (K := K) two_ne_zero]
    have : ∃ z, r.z3 = fin z ∧ z < pp.BackshoreElev := by
      cases hr1 with
      | plain x y0 y3 y4 z0 z3 y2 z1 z2 hy3 hy4 hz3 hb hs => exact ⟨_, rfl, hb⟩
      | channel x y0 y1 y2 y3 y4 z0 z1 z2 z3 hy1 hy2 hy3 hy4 hz1 hz2 hz3 hb hs => exact ⟨_, rfl, hb⟩
    obtain ⟨z, hz, hzb⟩ := this
    rw [hz, sub_fin, mul_fin, zero_div_fin (mul_ne_zero (sub_ne_zero.mpr (ne_of_gt hzb)) hDx), neg_fin, neg_zero])
  subst e3 e3' e4
  split at h
  · cases h
    exact ⟨rfl, rfl, rfl, rfl, rfl, rfl, rfl, rfl, hriv, rfl, rfl, rfl⟩
  · rename_i hcl
    have hcl : a.Closed = false := by simpa using hcl
    obtain ⟨out, houtg, h⟩ := bind_ok.mp h
    have houtr : ∀ r ∈ out, Tidy pp r ∧ r.y1.isnan = false := by
      intro r hr
      obtain ⟨k, hk⟩ := mem_iff_getElem?.mp hr
      rw [gather_getElem? houtg] at hk
      obtain ⟨i, hi, hri⟩ := Option.bind_eq_some_iff.mp hk
      exact ⟨ht r (mem_of_getElem? hri), hout hcl i (mem_of_getElem? hi) r hri⟩
    obtain ⟨z1, g1, h⟩ := bind_ok.mp h
    obtain ⟨y1, g1', h⟩ := bind_ok.mp h
    obtain ⟨y2, g2, h⟩ := bind_ok.mp h
    have f1 : z1 = _ := addCol_zero g1 (fun s hs r hr => by
      obtain ⟨hr1, hr2⟩ := houtr r hr
      simp only [(hfil 2 s hs).bedDep, (hfil 2 s hs).bedEro, sub_fin, sub_zero]
      cases hr1 with
      | plain => cases hr2
      | channel x y0 y1 y2 y3 y4 z0 z1 z2 z3 hy1 hy2 hy3 hy4 hz1 hz2 hz3 hb hs =>
        simp only [sub_fin, mul_fin]
        exact zero_div_fin (mul_ne_zero (sub_ne_zero.mpr (ne_of_gt hy2)) hDx))
    have f1' : y1 = _ := addCol_zero g1' (fun s hs r hr => by
      obtain ⟨hr1, hr2⟩ := houtr r hr
      simp only [(hfil 2 s hs).bankEro, zero_div_fin (K := K) two_ne_zero]
      cases hr1 with
      | plain => cases hr2
      | channel x y0 y1 y2 y3 y4 z0 z1 z2 z3 hy1 hy2 hy3 hy4 hz1 hz2 hz3 hb hs =>
        simp only [sub_fin, mul_fin]
        exact zero_div_fin (mul_ne_zero (sub_ne_zero.mpr (ne_of_gt (lt_of_lt_of_le hz1 hz2))) hDx))
    have f2 : y2 = _ := addCol_zero g2 (fun s hs r hr => by
      obtain ⟨hr1, hr2⟩ := houtr r hr
      simp only [(hfil 2 s hs).bankEro, zero_div_fin (K := K) two_ne_zero]
      cases hr1 with
      | plain => cases hr2
      | channel x y0 y1 y2 y3 y4 z0 z1 z2 z3 hy1 hy2 hy3 hy4 hz1 hz2 hz3 hb hs =>
        simp only [sub_fin, mul_fin]
        rw [zero_div_fin (mul_ne_zero (sub_ne_zero.mpr (ne_of_gt hz1)) hDx), neg_fin, neg_zero])
    subst f1 f1' f2
    obtain ⟨e, hee, h⟩ := bind_ok.mp h
    have hqe : QuietSec e := by
      have : e ∈ ss.filter (·.flag == 3) := by
        split at hee
        · rename_i x hx
          cases hee
          rw [hx]; exact mem_singleton_self _
        · cases hee
      exact hfil 3 e this
    obtain ⟨bl, hbl, h⟩ := bind_ok.mp h
    have hbl0 : bl = fin 0 := by
      rw [pyGet_last] at hbl
      exact hb _ (mem_of_getLast? hbl)
    obtain ⟨_, ⟨x1, hx1, _⟩, ⟨w, hw, hw0⟩, ⟨z, hz, hzb⟩⟩ := he hcl
    cases h
    have hden : (pp.BeachTopElev - z) * pp.SpitWidth ≠ 0 := mul_ne_zero (sub_ne_zero.mpr (ne_of_gt hzb)) (ne_of_gt hp.spit)
    have hEW : (e.bankEro / ((fin pp.BeachTopElev - a.EndElev) * fin pp.SpitWidth) : Fl K) = fin 0 := by
      rw [hqe.bankEro, hz, sub_fin, mul_fin, zero_div_fin hden]
    refine ⟨?_, rfl, rfl, rfl, rfl, rfl, rfl, rfl, hriv, hEW, ?_, ?_⟩
    · refine map_zero hl (fun c hcm => ?_)
      obtain ⟨s, hs, hs0⟩ := (hc c hcm).sfh
      unfold toShore
      rw [hbl0, hs, hx1]
      simp only [mul_fin, mul_zero, sub_fin, abs_fin]
      rw [zero_div_fin (ne_of_gt hp.spread), div_fin _ _ (ne_of_gt hp.spread), sub_fin, npmax_fin, mul_fin, zero_mul, zero_div_fin (mul_ne_zero hs0 hDx)]
    · show (e.bedDep - e.bedEro) / (a.EndWidth * fin a.Dx) = fin 0
      rw [hqe.bedDep, hqe.bedEro, hw, sub_fin, sub_zero, mul_fin]
      exact zero_div_fin (mul_ne_zero (ne_of_gt hw0) hDx)
    · simp only [hEW, zero_div_fin (K := K) two_ne_zero, mul_fin, zero_mul, neg_fin, neg_zero]
      split
      · rfl
      · split <;> rfl

theorem mapIdx_zero {n : ℕ} {cells : List (Cell K)} (hl : cells.length = n) {f : ℕ → Fl K × Cell K → Fl K}
    (h : ∀ i c, i < n → c ∈ cells → f i (fin 0, c) = fin 0) : ((replicate n (fin 0)).zip cells).mapIdx f = replicate n (fin 0) := by
  apply ext_getElem?
  intro i
  rw [getElem?_mapIdx]
  by_cases hi : i < n
  · have hc : cells[i]? = some (cells[i]'(hl ▸ hi)) := getElem?_eq_getElem (hl ▸ hi)
    have hr : (replicate n (fin (0 : K)))[i]? = some (fin 0) := by rw [getElem?_replicate, if_pos hi]
    have hz : ((replicate n (fin (0 : K))).zip cells)[i]? = some (fin 0, cells[i]'(hl ▸ hi)) := by
      rw [getElem?_zip_eq_some]
      exact ⟨hr, hc⟩
    rw [hz, hr]
    simp only [Option.map_some, Option.some.injEq]
    exact h i _ hi (getElem_mem _)
  · have h1 : ((replicate n (fin (0 : K))).zip cells)[i]? = none := by
      rw [getElem?_eq_none_iff, length_zip, length_replicate, hl, min_self]
      exact Nat.le_of_not_lt hi
    have h2 : (replicate n (fin (0 : K)))[i]? = none := by
      rw [getElem?_eq_none_iff, length_replicate]
      exact Nat.le_of_not_lt hi
    rw [h1, h2]
    rfl

theorem getD_zero {l : List (Fl K)} (h : ∀ q ∈ l, q = fin 0) {i : ℕ} (hi : i < l.length) : (l[i]?).getD nan = fin 0 := by
  rw [getElem?_eq_getElem hi]
  exact h _ (getElem_mem _)

theorem lstRates_rest (hp : RestPars pp a.Dx) (hlst : ∀ q ∈ a.LST, q = fin 0) (he : a.Closed = false → TidyCoast pp a.rows a.EndX1 a.EndWidth a.EndElev)
    {cells cells' : List (Cell K)} {n rb : ℕ} (hc : ∀ c ∈ cells, TidyCell pp c) (hl : cells.length = n) {R R' : Rates K} (hR : ZeroRates n R)
    (h : lstRates pp a rb cells R = .ok (R', cells')) : ZeroRates n R' ∧ cells' = cells := by
  have hDx := ne_of_gt hp.Dx
  unfold lstRates at h
  obtain ⟨y0, hy0, h⟩ := bind_ok.mp h
  have ey0 : y0 = replicate n (fin 0) := by
    unfold lstInterior at hy0
    simp only at hy0
    split at hy0
    · cases hy0
    · rename_i hlen
      rw [ok_inj] at hy0
      rw [← hy0, hR.y0]
      refine mapIdx_zero hl (fun i c hi hcm => ?_)
      dsimp only
      split
      · rename_i hii
        obtain ⟨s, hs, hs0⟩ := (hc c hcm).sfh
        rw [getD_zero hlst (by omega), getD_zero hlst (by omega), hs, sub_fin, sub_zero, mul_fin, zero_div_fin (mul_ne_zero hs0 hDx), add_fin_zero]
      · rfl
  subst ey0
  split at h
  · cases h
    exact ⟨{ hR with y0 := rfl }, rfl⟩
  · rename_i hcl
    have hcl : a.Closed = false := by simpa using hcl
    obtain ⟨l, hll, h⟩ := bind_ok.mp h
    have hl0 : l = fin 0 := hlst l (mem_of_getElem? (ixGet_ok.mp hll))
    subst hl0
    rw [if_neg (by simp)] at h
    obtain ⟨c, hcg, h⟩ := bind_ok.mp h
    have hcg := ixGet_ok.mp hcg
    obtain ⟨s, hs, hs0⟩ := (hc c (mem_of_getElem? hcg)).sfh
    obtain ⟨_, _, _, ⟨z, hz, hzb⟩⟩ := he hcl
    have hden : (pp.BeachTopElev - z) * pp.SpitWidth ≠ 0 := mul_ne_zero (sub_ne_zero.mpr (ne_of_gt hzb)) (ne_of_gt hp.spit)
    have hred : (-(fin 0) / ((fin pp.BeachTopElev - a.EndElev) * fin pp.SpitWidth) : Fl K) = fin 0 := by
      rw [hz, neg_fin, neg_zero, sub_fin, mul_fin, zero_div_fin hden]
    have hz0 : (fin 0 / (c.sfh * fin a.Dx) : Fl K) = fin 0 := by
      rw [hs, mul_fin, zero_div_fin (mul_ne_zero hs0 hDx)]
    simp only [pure_ok, Prod.mk.injEq] at h
    obtain ⟨h1, h2⟩ := h
    constructor
    · rw [← h1]
      refine { hR with y0 := rfl, endW := ?_, endX := ?_ }
      · show R.endW - _ = _
        rw [hR.endW, hred, sub_fin, sub_zero]
      · show R.endX - _ = _
        rw [hR.endX, hred, zero_div_fin (K := K) two_ne_zero, sub_fin, sub_zero]
    · rw [← h2]
      apply ext_getElem?
      intro j
      rw [getElem?_modify]
      cases cells[j]? with
      | none => rfl
      | some c' =>
        split
        · simp only [hz0, add_fin_zero]; rfl
        · rfl

theorem cstRates_rest (hp : RestPars pp a.Dx) (hcst : ∀ q ∈ a.CST, q = fin 0) (howp : ∀ q ∈ a.OverwashProp, ∃ x, q = fin x)
    {cells : List (Cell K)} {n : ℕ} (hc : ∀ c ∈ cells, TidyCell pp c) (hl : cells.length = n) {R R' : Rates K} (hR : ZeroRates n R)
    (h : cstRates pp a cells R = .ok R') : ZeroRates n R' := by
  unfold cstRates at h
  simp only at h
  split at h
  · cases h
  · rename_i hlen
    simp only [not_or, ne_eq, not_not] at hlen
    have hg : ∀ i, i < n → ∃ x : K, (a.OverwashProp[i]?).getD nan = fin x := by
      intro i hi
      rw [getElem?_eq_getElem (by omega)]
      exact howp _ (getElem_mem _)
    rw [ok_inj] at h
    subst h
    refine { hR with y0 := ?_, y1 := ?_, y3 := ?_, z0 := ?_ }
    · show ((R.y0).zip cells).mapIdx _ = _
      rw [hR.y0]
      refine mapIdx_zero hl (fun i c hi hcm => ?_)
      obtain ⟨s, hs, hs0⟩ := (hc c hcm).sfh
      simp only [getD_zero hcst (show i < a.CST.length by omega), hs, hp.ends, neg_fin, neg_zero, zero_div_fin hs0, sub_fin, sub_zero]
      rw [zero_div_fin (by norm_num), ite_self]
    · show ((R.y1).zip cells).mapIdx _ = _
      rw [hR.y1]
      refine mapIdx_zero hl (fun i c hi hcm => ?_)
      obtain ⟨x, hx⟩ := hg i hi
      obtain ⟨s, hs, hs0⟩ := (hc c hcm).bh
      simp only [hx, getD_zero hcst (show i < a.CST.length by omega), hs, sub_fin, mul_fin, mul_zero, zero_div_fin hs0, sub_zero, ite_self]
    · show ((R.y3).zip cells).mapIdx _ = _
      rw [hR.y3]
      refine mapIdx_zero hl (fun i c hi hcm => ?_)
      obtain ⟨x, hx⟩ := hg i hi
      obtain ⟨s, hs, hs0⟩ := (hc c hcm).bh
      simp only [hx, getD_zero hcst (show i < a.CST.length by omega), hs, sub_fin, mul_fin, mul_zero, zero_div_fin hs0, sub_zero, ite_self]
    · show ((R.z0).zip cells).mapIdx _ = _
      rw [hR.z0]
      refine mapIdx_zero hl (fun i c hi hcm => ?_)
      obtain ⟨x, hx⟩ := hg i hi
      obtain ⟨s, hs, hs0⟩ := (hc c hcm).cw
      simp only [hx, getD_zero hcst (show i < a.CST.length by omega), hs, sub_fin, mul_fin, mul_zero, zero_div_fin hs0, add_fin_zero]

theorem clip_zero {L : K} (h : 0 ≤ L) : clip L (fin 0) = fin 0 := by
  unfold clip
  rw [npmax_fin, npmin_fin, max_eq_left (by simpa using h), min_eq_left h]

theorem pyClip_zero {L : K} (h : 0 ≤ L) : pyClip L (fin 0) = fin 0 := by
  unfold pyClip
  rw [pymax_fin, pymin_fin, max_eq_left (by simpa using h), min_eq_left h]

theorem limit_rest {rate : Fl K} {lim : K} (hlim : 0 ≤ lim) {dtMin dt : ℤ} {n : ℕ} {R R' : Rates K} (hR : ZeroRates n R)
    (h : limitRates rate lim dtMin dt R = .ok R') : ZeroRates n R' := by
  unfold limitRates at h
  split at h
  · obtain ⟨_, _, h⟩ := bind_ok.mp h
    split at h
    · cases h
    · have hL : 0 ≤ lim / (secs dt : K) := by
        apply div_nonneg hlim
        have : 0 ≤ secs dt := by unfold secs; omega
        exact_mod_cast this
      simp only [pure_ok] at h
      subst h
      have hm : (replicate n (fin (0 : K))).map (clip (lim / (secs dt : K))) = replicate n (fin 0) := by
        rw [map_replicate, clip_zero hL]
      constructor
      · show R.y0.map _ = _; rw [hR.y0, hm]
      · show R.y1.map _ = _; rw [hR.y1, hm]
      · show R.y2.map _ = _; rw [hR.y2, hm]
      · show R.y3.map _ = _; rw [hR.y3, hm]
      · show R.y4.map _ = _; rw [hR.y4, hm]
      · show R.z0.map _ = _; rw [hR.z0, hm]
      · show R.z1.map _ = _; rw [hR.z1, hm]
      · show R.z3.map _ = _; rw [hR.z3, hm]
      · intro q hq
        obtain ⟨r, hr, rfl⟩ := mem_map.mp hq
        rw [hR.riv r hr, clip_zero hL]
      · show clip _ R.endW = _; rw [hR.endW, clip_zero hL]
      · show pyClip _ R.endZ = _; rw [hR.endZ, pyClip_zero hL]
      · show pyClip _ R.endX = _; rw [hR.endX, pyClip_zero hL]
  · cases h
    exact hR

theorem apply_rest {dt : ℤ} {cells : List (Cell K)} {n : ℕ} (hl : cells.length = n) {R : Rates K} (hR : ZeroRates n R) {st : MorSt K}
    (h : applyRates a dt R cells = .ok st) :
    st = { cells := cells, e0 := a.EndX0, e1 := a.EndX1, endW := a.EndWidth, endZ := a.EndElev, ix := a.outlet, riv := a.RiverElev } := by
  unfold applyRates at h
  simp only at h
  split at h
  · cases h
  · rename_i hlen
    rw [ok_inj] at h
    subst h
    have hm : cells.mapIdx (moveCell R (fin (secs dt : K))) = cells := by
      apply ext_getElem?
      intro i
      rw [getElem?_mapIdx]
      cases hc : cells[i]? with
      | none => rfl
      | some c =>
        have hi : i < n := hl ▸ (List.getElem?_eq_some_iff.mp hc).1
        have hz : ((replicate n (fin (0 : K)))[i]?).getD nan = fin 0 := by rw [getElem?_replicate, if_pos hi]; rfl
        simp only [Option.map_some, Option.some.injEq]
        unfold moveCell
        simp only [hR.y0, hR.y1, hR.y2, hR.y3, hR.y4, hR.z0, hR.z1, hR.z3, hz, mul_fin, zero_mul, add_fin_zero]
    have hr : a.RiverElev.take 1 ++ zipWith (fun z r => z + r * fin (secs dt : K)) a.RiverElev.tail R.riv = a.RiverElev := by
      cases hE : a.RiverElev with
      | nil => rw [hE] at hlen; simp at hlen
      | cons z l =>
        simp only [take_succ_cons, take_zero, tail_cons, cons_append, nil_append, cons.injEq, true_and]
        rw [hE] at hlen
        have hlen : R.riv.length = l.length := by simpa using hlen
        apply ext_getElem?
        intro i
        rw [getElem?_zipWith]
        cases hi : l[i]? with
        | none => rfl
        | some z =>
          have : i < R.riv.length := hlen ▸ (List.getElem?_eq_some_iff.mp hi).1
          rw [getElem?_eq_getElem this, hR.riv _ (getElem_mem _)]
          simp only [mul_fin, zero_mul, add_fin_zero]
    simp only [hm, hr, hR.endX, hR.endW, hR.endZ, mul_fin, zero_mul, add_fin_zero, ite_self]

end

end Verif.Model
