import Verif.Model.Load
import Verif.Model.Core
import Verif.Lemmas.ChannelReach
import Mathlib.Tactic.FieldSimp
import Mathlib.Tactic.LinearCombination

set_option autoImplicit false
set_option linter.unusedSectionVars false

namespace Verif.Model
open Verif Fl

variable {K : Type} [Field K] [LinearOrder K] [IsStrictOrderedRing K] [FloorRing K]

/-- The values of `arange` for a positive step. -/
theorem arange_ok {a b d : K} (hd : 0 < d) : ∃ l n, arange a b d = .ok l ∧ l.length = n ∧
    (∀ (i : ℕ) (x : K), l[i]? = some x ↔ i < n ∧ x = a + (i : K) * d) ∧ b ≤ a + (n : K) * d ∧ (∀ k : ℕ, b ≤ a + (k : K) * d → n ≤ k) := by
  have hc : (⌈(b - a) / d⌉.toNat : K) ≥ (b - a) / d := by
    have h1 : (⌈(b - a) / d⌉ : K) ≥ (b - a) / d := Int.le_ceil _
    have h2 : (⌈(b - a) / d⌉ : ℤ) ≤ (⌈(b - a) / d⌉.toNat : ℤ) := Int.self_le_toNat _
    have h3 : ((⌈(b - a) / d⌉ : ℤ) : K) ≤ ((⌈(b - a) / d⌉.toNat : ℤ) : K) := by exact_mod_cast h2
    calc (b - a) / d ≤ _ := h1
      _ ≤ _ := h3
      _ = _ := by push_cast; rfl
  refine ⟨(List.range ⌈(b - a) / d⌉.toNat).map (fun i : ℕ => a + (i : K) * d), ⌈(b - a) / d⌉.toNat, ?_, by simp, ?_, ?_, ?_⟩
  · unfold arange; rw [if_neg (ne_of_gt hd)]
  · intro i x
    rw [List.getElem?_map]
    by_cases h : i < ⌈(b - a) / d⌉.toNat
    · rw [List.getElem?_range h]; simp [h, eq_comm]
    · rw [List.getElem?_eq_none (by simpa using h)]; simp [h]
  · rw [ge_iff_le, div_le_iff₀ hd] at hc; linarith
  · intro k hk
    rw [Int.toNat_le, Int.ceil_le, div_le_iff₀ hd]
    push_cast; linarith

/-- The only index with a property. -/
theorem whereIx_singleton {α : Type} {p : α → Bool} {l : List α} {m : ℕ} {a : α} (hm : l[m]? = some a) (hp : p a = true)
    (hu : ∀ (i : ℕ) (b : α), l[i]? = some b → p b = true → i = m) : whereIx p l = [m] := by
  have h1 : ∀ i, i ∈ whereIx p l ↔ i = m := by
    intro i
    rw [mem_whereIx]
    constructor
    · rintro ⟨b, hb, hpb⟩; exact hu i b hb hpb
    · rintro rfl; exact ⟨a, hm, hp⟩
  have hn : (whereIx p l).Nodup := List.Nodup.filter _ List.nodup_range
  match hw : whereIx p l with
  | [] => rw [hw] at h1; simpa using (h1 m).mpr rfl
  | [i] => rw [hw] at h1; rw [(h1 i).mp (by simp)]
  | i :: j :: t =>
    rw [hw] at h1 hn
    have := (h1 i).mp (by simp)
    have := (h1 j).mp (by simp)
    simp only [List.nodup_cons, List.mem_cons, not_or] at hn
    exact absurd (by omega : i = j) hn.1.1

theorem whereIx_one {α : Type} (p : α → Bool) (a : α) : whereIx p [a] = if p a then [0] else [] := by
  have : List.range 1 = [0] := rfl
  simp [whereIx, this, List.filter_cons]

/-- What is needed of the rows of the default shoreline. -/
structure DefaultRows (c : ShoreCfg K) (rows : List (Transect K)) (m : ℕ) : Prop where
  all : ∀ (i : ℕ) (r : Transect K), rows[i]? = some r → r = defaultRow c (((i : K) - m) * c.Dx)
  lt : m < rows.length

theorem defaultRows_ok {c : ShoreCfg K} (hd : 0 < c.Dx) (hL : 0 ≤ c.ShorelineLengthLeft) (hR : 0 ≤ c.ShorelineLengthRight) :
    ∃ rows m, defaultRows c = .ok rows ∧ DefaultRows c rows m ∧ c.ShorelineLengthLeft ≤ (m : K) * c.Dx ∧
      ((m : K) - 1) * c.Dx < c.ShorelineLengthLeft ∧
      c.ShorelineLengthRight ≤ ((rows.length : K) - 1 - m) * c.Dx ∧ ((rows.length : K) - 2 - m) * c.Dx < c.ShorelineLengthRight := by
  have hfl : ⌊-c.ShorelineLengthLeft / c.Dx⌋ ≤ 0 := by
    have : -c.ShorelineLengthLeft / c.Dx ≤ 0 := div_nonpos_of_nonpos_of_nonneg (by linarith) hd.le
    exact_mod_cast (Int.floor_le _).trans this
  obtain ⟨m, hm⟩ : ∃ m : ℕ, ⌊-c.ShorelineLengthLeft / c.Dx⌋ = -(m : ℤ) := ⟨(-⌊-c.ShorelineLengthLeft / c.Dx⌋).toNat, by omega⟩
  have hmK : (⌊-c.ShorelineLengthLeft / c.Dx⌋ : K) = -(m : K) := by rw [hm]; push_cast; rfl
  have h1 : -(m : K) * c.Dx ≤ -c.ShorelineLengthLeft := by
    rw [← hmK, ← le_div_iff₀ hd]; exact Int.floor_le _
  have h2 : -c.ShorelineLengthLeft < (-(m : K) + 1) * c.Dx := by
    rw [← hmK, ← div_lt_iff₀ hd]; exact Int.lt_floor_add_one _
  obtain ⟨xs, n, hx, hlen, hget, hn1, hn2⟩ := arange_ok (a := (⌊-c.ShorelineLengthLeft / c.Dx⌋ : K) * c.Dx) (b := c.ShorelineLengthRight + c.Dx) hd
  rw [hmK] at hn1 hn2
  have hmn : m < n := by
    by_contra hlt
    have h3 : (n : K) ≤ (m : K) := by exact_mod_cast not_lt.mp hlt
    have h4 : (n : K) * c.Dx ≤ (m : K) * c.Dx := mul_le_mul_of_nonneg_right h3 hd.le
    linarith
  refine ⟨xs.map (defaultRow c), m, ?_, ⟨?_, by simpa [hlen] using hmn⟩, by linarith, by linarith, ?_, ?_⟩
  · unfold defaultRows
    rw [if_neg (ne_of_gt hd)]
    exact bind_ok.mpr ⟨xs, hx, rfl⟩
  · intro i r hr
    rw [List.getElem?_map, Option.map_eq_some_iff] at hr
    obtain ⟨x, hx1, rfl⟩ := hr
    rw [((hget i x).mp hx1).2, hmK]
    congr 1; ring
  · rw [List.length_map, hlen]; linarith
  · rw [List.length_map, hlen]
    by_contra hge
    have := hn2 (n - 1) (by rw [Nat.cast_sub (by omega)]; push_cast; linarith)
    omega

/-- The row of the default shoreline in line with the river. -/
theorem DefaultRows.row {c : ShoreCfg K} {rows : List (Transect K)} {m : ℕ} (h : DefaultRows c rows m) :
    rows[m]? = some (defaultRow c 0) := by
  obtain ⟨r, hr⟩ : ∃ r, rows[m]? = some r := ⟨rows[m]'h.lt, List.getElem?_eq_getElem h.lt⟩
  rw [hr, h.all m r hr, sub_self, zero_mul]

/-- No other row is. -/
theorem DefaultRows.other {c : ShoreCfg K} {rows : List (Transect K)} {m : ℕ} (h : DefaultRows c rows m) (hd : 0 < c.Dx)
    {i : ℕ} {r : Transect K} (hr : rows[i]? = some r) (hx : r.x = 0) : i = m := by
  have h1 := h.all i r hr
  have h2 : (((i : K) - m) * c.Dx) = 0 := by
    rw [h1] at hx
    unfold defaultRow at hx
    split at hx
    · assumption
    · exact hx
  rcases mul_eq_zero.mp h2 with h3 | h3
  · exact_mod_cast sub_eq_zero.mp h3
  · exact absurd h3 (ne_of_gt hd)

theorem DefaultRows.first {c : ShoreCfg K} {rows : List (Transect K)} {m : ℕ} (h : DefaultRows c rows m) (hd : 0 < c.Dx) :
    firstIx (fun r : Transect K => fin r.x ==? fin 0) rows = .ok m := by
  unfold firstIx
  rw [whereIx_singleton h.row (by simp [defaultRow]) (fun i b hb hp => h.other hd hb (by simpa using hp))]

theorem DefaultRows.outletIx {c : ShoreCfg K} {rows : List (Transect K)} {m : ℕ} (h : DefaultRows c rows m) (hd : 0 < c.Dx) :
    outletIx rows (fin 0) (fin 0) = [m] := by
  unfold Model.outletIx
  rw [if_neg (by simp), whereIx_singleton h.row (by simp [defaultRow])
    (fun i b hb hp => h.other hd hb (by simp at hp; exact le_antisymm hp.2 hp.1))]
  rfl

theorem lagWidth_default (c : ShoreCfg K) (x : K) : lagWidth (defaultRow c x) = if x = 0 then fin (c.RiverWidth - 1 / 1000) else fin 0 := by
  unfold lagWidth defaultRow
  split
  · simp only [sub_fin]; congr 1; ring
  · simp

theorem outWidth_default (c : ShoreCfg K) : outWidth (defaultRow c 0) = fin c.OutletWidth := by
  unfold outWidth defaultRow
  simp

theorem gather_one {α : Type} {l : List α} {i : ℕ} {a : α} (h : l[i]? = some a) : gather l [i] = .ok [a] :=
  gather_cons_ok.mpr ⟨a, [], h, gather_nil l, rfl⟩

/-- What `loadModel` leaves for the default shoreline. -/
structure DefaultLoad (c : ShoreCfg K) (ld : LoadOut K) (m : ℕ) (riv : List K) : Prop where
  rows : DefaultRows c ld.rows m
  hriv : ld.RiverElev = riv.map fin
  e0 : ld.EndX0 = fin 0
  e1 : ld.EndX1 = fin 0
  ew : ld.EndWidth = fin c.OutletWidth
  ez : ld.EndElev = fin c.OutletBed
  wl : ld.RiverWL = List.replicate riv.length (fin 0)
  vel : ld.RiverVel = List.replicate riv.length (fin 0)
  lwl : ld.LagoonWL = List.replicate ld.rows.length (fin 0)
  lv : ld.LagoonVel = List.replicate ld.rows.length (fin 0)
  od : ld.OutletDep = List.replicate ld.rows.length (fin 0)
  ov : ld.OutletVel = List.replicate ld.rows.length (fin 0)
  ed : ld.EndDep = List.replicate 2 (fin 0)
  ev : ld.EndVel = List.replicate 2 (fin 0)
  closed : ld.Closed = false

theorem defaultLoad_inv {c : ShoreCfg K} {slope len : K} {ld : LoadOut K} (hd : 0 < c.Dx) (hL : 0 ≤ c.ShorelineLengthLeft)
    (hR : 0 ≤ c.ShorelineLengthRight) (h : defaultLoad c slope len = .ok ld) : ∃ m riv, DefaultLoad c ld m riv := by
  unfold defaultLoad riverElev at h
  simp only [bind_ok, pure_ok] at h
  obtain ⟨_, ⟨up, h1, rfl⟩, rows, h2, rfl⟩ := h
  obtain ⟨rows', m, h3, h4, _⟩ := defaultRows_ok hd hL hR
  rw [h2, ok_inj] at h3
  subst h3
  exact ⟨m, up.reverse, ⟨h4, rfl, rfl, rfl, rfl, rfl, by simp, by simp, rfl, rfl, rfl, rfl, rfl, rfl, rfl⟩⟩

theorem DefaultLoad.outletStage {c : ShoreCfg K} {ld : LoadOut K} {m : ℕ} {riv : List K} (h : DefaultLoad c ld m riv) (hd : 0 < c.Dx)
    {pp : PhysPars K} (ho : pp.MinOutletWidth < c.OutletWidth) :
    outletStage pp (firstChan ld c.Dx) = .ok ([m], [fin c.OutletWidth], false) := by
  unfold Model.outletStage
  simp only [firstChan, h.closed, h.e0, h.e1, h.ew, Bool.false_eq_true, if_false, h.rows.outletIx hd]
  refine bind_ok.mpr ⟨_, gather_one h.rows.row, ?_⟩
  simp only [List.map_cons, List.map_nil, outWidth_default, List.any_cons, List.any_nil, ble_fin, not_le.mpr ho, decide_false,
    Bool.or_false, Bool.false_eq_true, if_false, List.isEmpty_cons]
  rfl

theorem DefaultLoad.nonan {c : ShoreCfg K} {ld : LoadOut K} {m : ℕ} {riv : List K} (h : DefaultLoad c ld m riv) :
    ∀ r ∈ (firstChan ld c.Dx).rows, (lagWidth r).isnan = false := by
  intro r hr
  obtain ⟨i, hi⟩ := List.mem_iff_getElem?.mp hr
  rw [h.rows.all i r hi, lagWidth_default]
  split <;> rfl

/-- The first assembly with the default shoreline. -/
theorem DefaultLoad.assemble {c : ShoreCfg K} {ld : LoadOut K} {m : ℕ} {riv : List K} (h : DefaultLoad c ld m riv) (hd : 0 < c.Dx)
    {pp : PhysPars K} (hrw : pp.RiverWidth = c.RiverWidth) (hm : 0 ≤ pp.MinOutletWidth) (ho : pp.MinOutletWidth < c.OutletWidth)
    (hw : pp.MinOutletWidth ≤ c.RiverWidth - 1 / 1000) (hw0 : 0 < c.RiverWidth - 1 / 1000) :
    ∃ out, assembleChannel pp (firstChan ld c.Dx) = .ok out ∧ out.closed = false ∧ out.online = [m] ∧ out.outlet = [m] := by
  set a := firstChan ld c.Dx with ha
  have hlw : lagWidth (defaultRow c 0) = fin (c.RiverWidth - 1 / 1000) := by rw [lagWidth_default, if_pos rfl]
  let s : LagStage K := ⟨[m], lagAreaOf a.Dx (a.rows.drop (m + 1)), lagLenOf a.Dx (a.rows.drop (m + 1)),
    lagAreaOf a.Dx (a.rows.filter (fun r => a.EndX0 <? fin r.x)), lagLenOf a.Dx (a.rows.filter (fun r => a.EndX0 <? fin r.x))⟩
  let dep := a.RivDep ++ [fin 0 - (defaultRow c 0).z3] ++ [fin 0] ++ padEnd a.EndDep
  let vel := a.RivVel ++ [fin 0] ++ [fin 0] ++ padEnd a.EndVel
  let g := chanGeom pp a s false [m] [fin c.OutletWidth] [defaultRow c 0] [defaultRow c 0]
  let out : ChanOut K := ⟨g.1, g.2.2.1, g.2.2.2.1, g.2.2.2.2.1, g.2.2.2.2.2, dep, vel, [m], [m], g.2.1, false⟩
  have hz3 : (defaultRow c 0).z3 = fin c.LagoonBed := by simp [defaultRow]
  have hz1 : (defaultRow c 0).z1 = fin ((c.OutletBed + c.LagoonBed) / 2) := by simp [defaultRow]
  have hed : padEnd a.EndDep = [fin 0, fin 0] := by simp [ha, firstChan, h.ed, padEnd]
  have hev : padEnd a.EndVel = [fin 0, fin 0] := by simp [ha, firstChan, h.ev, padEnd]
  have hgr : ∀ l : List (Fl K), l = List.replicate ld.rows.length (fin 0) → gather l [m] = .ok [fin 0] := by
    rintro _ rfl
    exact gather_one (by rw [List.getElem?_replicate, if_pos h.rows.lt])
  have hrd : ∀ x ∈ a.RivDep, x.isnan = false := by
    intro x hx
    obtain ⟨i, hi⟩ := List.mem_iff_getElem?.mp hx
    rw [ha] at hi
    simp only [firstChan, h.wl, h.hriv, List.getElem?_zipWith, List.getElem?_replicate, List.getElem?_map] at hi
    split at hi
    · rename_i h1 h2
      cases hi
      split at h1
      · cases h1
        obtain ⟨y, _, rfl⟩ := Option.map_eq_some_iff.mp h2
        rfl
      · cases h1
    · cases hi
  have hrv : ∀ x ∈ a.RivVel, x.isnan = false := by
    intro x hx
    rw [ha] at hx
    simp only [firstChan, h.vel] at hx
    rw [(List.mem_replicate.mp hx).2]; rfl
  have hdep : ∀ x ∈ dep, x.isnan = false := by
    intro x hx
    simp only [dep, hed, hz3, List.mem_append, List.mem_cons, List.not_mem_nil, or_false, sub_fin] at hx
    rcases hx with ((hx | rfl) | rfl) | rfl | rfl
    · exact hrd x hx
    all_goals rfl
  have hvel : ∀ x ∈ vel, x.isnan = false := by
    intro x hx
    simp only [vel, hev, List.mem_append, List.mem_cons, List.not_mem_nil, or_false] at hx
    rcases hx with ((hx | rfl) | rfl) | rfl | rfl
    · exact hrv x hx
    all_goals rfl
  have hwid : ∀ x ∈ out.width, ∃ y, x = fin y ∧ 0 < y := by
    intro x hx
    have : out.width = List.replicate a.RiverElev.length (fin pp.RiverWidth) ++ [lagWidth (defaultRow c 0)] ++
        ([fin c.OutletWidth] ++ [a.EndWidth, a.EndWidth]) := by simp [out, g, chanGeom]
    rw [this, hlw] at hx
    simp only [List.mem_append, List.mem_replicate, List.mem_cons, List.not_mem_nil, or_false, ha, firstChan, h.ew] at hx
    rcases hx with (⟨_, rfl⟩ | rfl) | rfl | rfl | rfl
    · exact ⟨_, rfl, by rw [hrw]; linarith⟩
    · exact ⟨_, rfl, hw0⟩
    all_goals exact ⟨_, rfl, by linarith⟩
  have helev : ∀ x ∈ out.elev, x.isnan = false := by
    intro x hx
    have : out.elev = a.RiverElev ++ [(defaultRow c 0).z3] ++ ([(defaultRow c 0).z1] ++ [a.EndElev, pymin (fin pp.MaxOutletElev) a.EndElev]) := by
      simp [out, g, chanGeom]
    rw [this, hz1, hz3] at hx
    simp only [List.mem_append, List.mem_map, List.mem_cons, List.not_mem_nil, or_false, ha, firstChan, h.hriv, h.ez, pymin_fin] at hx
    rcases hx with (⟨y, _, rfl⟩ | rfl) | rfl | rfl | rfl
    all_goals rfl
  have has : Assembled pp a out m (defaultRow c 0) [fin c.OutletWidth] false s s [defaultRow c 0] [defaultRow c 0] := by
    refine ⟨h.rows.first hd, h.outletStage hd ho, h.rows.row, ?_, h.nonan, ?_, ?_, rfl, gather_one h.rows.row, ?_, rfl, ?_, ?_, ?_, helev,
      hvel, hdep, ?_⟩
    · rw [hlw, blt_fin]; exact decide_eq_true hw0
    · unfold lagoonStage
      rw [if_pos (show (a.EndX0 ==? fin 0) = true by simp [ha, firstChan, h.e0])]
      rfl
    · unfold cutStage
      refine bind_ok.mpr ⟨(), rfl, bind_ok.mpr ⟨_, gather_one h.rows.row, ?_⟩⟩
      have hwh : whereIx (fun r : Transect K => lagWidth r <? fin pp.MinOutletWidth) [defaultRow c 0] = [] := by
        rw [whereIx_one, hlw, blt_fin, decide_eq_false (not_lt.mpr hw)]; rfl
      simp only [hwh]
      refine bind_ok.mpr ⟨m, rfl, bind_ok.mpr ⟨m, rfl, bind_ok.mpr ⟨(), ?_, bind_ok.mpr ⟨_, gather_one h.rows.row, ?_⟩⟩⟩⟩
      · rw [pyAssert_ok]; simp [s]
      · refine bind_ok.mpr ⟨(), ?_, rfl⟩
        rw [pyAssert_ok]
        simpa [hlw] using hw0
    · exact gather_one h.rows.row
    · refine chanHyd_mk (hgr _ h.lwl) (hgr _ h.lv) (fillNan_id hdep) (fillNan_id hvel) (fun hc => by cases hc) (fun _ => ?_)
      exact ⟨[fin 0], [fin 0], hgr _ h.od, hgr _ h.ov, rfl, rfl⟩
    · intro x hx
      obtain ⟨y, rfl, hy⟩ := hwid x hx
      simpa using hy
    · intro x hx
      obtain ⟨y, rfl, hy⟩ := hwid x hx
      rfl
    · have : out.flag = List.replicate a.RiverElev.length 0 ++ List.replicate 1 1 ++ (List.replicate 1 2 ++ [3, 4]) := by
        simp [out, g, chanGeom, s]
      rw [this]
      simp [s, List.filter_replicate]
  exact ⟨out, has.mk_ok, rfl, rfl, rfl⟩

/-- The first assembly with the default shoreline fails if the lagoon is narrower than the smallest outlet. -/
theorem DefaultLoad.narrow {c : ShoreCfg K} {ld : LoadOut K} {m : ℕ} {riv : List K} (h : DefaultLoad c ld m riv) (hd : 0 < c.Dx)
    {pp : PhysPars K} (ho : pp.MinOutletWidth < c.OutletWidth)
    (hw : c.RiverWidth - 1 / 1000 < pp.MinOutletWidth ∨ c.RiverWidth - 1 / 1000 ≤ 0) :
    assembleChannel pp (firstChan ld c.Dx) = .error (if 0 < c.RiverWidth - 1 / 1000 then .index else .assertion) := by
  have hlw : lagWidth (defaultRow c 0) = fin (c.RiverWidth - 1 / 1000) := by rw [lagWidth_default, if_pos rfl]
  have ob : ∀ {α β : Type} (x : α) (g : α → Except PyErr β), (Except.ok x >>= g) = g x := fun _ _ => rfl
  have eb : ∀ {α β : Type} (e : PyErr) (g : α → Except PyErr β), ((Except.error e : Except PyErr α) >>= g) = .error e := fun _ _ => rfl
  have hrows : (firstChan ld c.Dx).rows = ld.rows := rfl
  unfold assembleChannel
  rw [hrows, h.rows.first hd]
  simp only [ob, h.outletStage hd ho]
  rw [show ixGet ld.rows m = .ok (defaultRow c 0) from ixGet_ok.mpr h.rows.row]
  simp only [ob, hlw, blt_fin]
  by_cases h0 : 0 < c.RiverWidth - 1 / 1000
  · rw [if_pos h0, show pyAssert (decide (0 < c.RiverWidth - 1 / 1000)) = .ok () from pyAssert_ok.mpr (decide_eq_true h0)]
    simp only [ob]
    rw [show pyAssert (ld.rows.all fun r => !(lagWidth r).isnan) = .ok () from pyAssert_ok.mpr (by simpa [hrows] using h.nonan)]
    simp only [ob]
    have hw : c.RiverWidth - 1 / 1000 < pp.MinOutletWidth := by rcases hw with h1 | h1 <;> linarith
    have hs : ∃ s, lagoonStage (firstChan ld c.Dx) m false = .ok s ∧ s.online = [m] := by
      unfold lagoonStage
      rw [if_pos (show ((firstChan ld c.Dx).EndX0 ==? fin 0) = true by simp [firstChan, h.e0])]
      exact ⟨_, rfl, rfl⟩
    obtain ⟨s, hs1, hs2⟩ := hs
    rw [hs1]
    simp only [ob]
    have hcut : cutStage pp (firstChan ld c.Dx) s false = .error .index := by
      unfold cutStage
      rw [hs2, show gather (firstChan ld c.Dx).rows [m] = .ok [defaultRow c 0] from gather_one h.rows.row]
      have hwh : whereIx (fun r : Transect K => lagWidth r <? fin pp.MinOutletWidth) [defaultRow c 0] = [0] := by
        rw [whereIx_one, hlw, blt_fin, decide_eq_true hw]; rfl
      simp only [ob, List.isEmpty_cons, hwh]
      rfl
    rw [hcut]
    rfl
  · rw [if_neg h0]
    simp only [h0, decide_false]
    rfl

end Verif.Model
