import Verif.Model.Preissmann
import Verif.Spec.Preissmann
import Mathlib.Analysis.SpecialFunctions.Pow.Deriv
import Mathlib.Analysis.Calculus.Deriv.Abs

set_option autoImplicit false

set_option linter.unusedSectionVars false

namespace Verif.Model
open Verif Fl Real Verif.Spec

/-! ### Strided assignments -/

theorem lookup_stride {α : Type} (start : ℕ) (vals : List α) (c : ℕ) :
    (((List.range vals.length).map (fun k => start + 2 * k)).zip vals).lookup c =
      if start ≤ c ∧ (c - start) % 2 = 0 then vals[(c - start) / 2]? else none := by
  induction vals generalizing start with
  | nil => simp
  | cons v vs ih =>
    rw [List.length_cons, List.range_succ_eq_map, List.map_cons, List.map_map, List.zip_cons_cons, List.lookup_cons]
    have e : ((fun k => start + 2 * k) ∘ Nat.succ) = fun k => (start + 2) + 2 * k := by
      funext k; simp [Nat.succ_eq_add_one]; ring
    rw [e, ih (start + 2)]
    by_cases hc : c = start
    · subst hc; simp
    · have : (c == start + 2 * 0) = false := by simpa using hc
      rw [this]
      by_cases h1 : start + 2 ≤ c ∧ (c - (start + 2)) % 2 = 0
      · rw [if_pos h1, if_pos ⟨by omega, by omega⟩]
        have : (c - start) / 2 = (c - (start + 2)) / 2 + 1 := by omega
        rw [this, List.getElem?_cons_succ]
      · rw [if_neg h1, if_neg (by omega)]

theorem setCells_arange2 {α : Type} (v : ℕ → α) (start stop : ℕ) (vals : List α)
    (h : vals.length = (stop - start + 1) / 2) (c : ℕ) :
    setCells v (arange2 start stop) vals c =
      if start ≤ c ∧ (c - start) % 2 = 0 then (vals[(c - start) / 2]?).getD (v c) else v c := by
  unfold setCells arange2
  rw [← h, lookup_stride]
  split <;> simp

theorem setCells_one {α : Type} (v : ℕ → α) (k : ℕ) (x : α) (c : ℕ) :
    setCells v [k] [x] c = if c = k then x else v c := by
  unfold setCells
  simp only [List.zip_cons_cons, List.zip_nil_right, List.lookup_cons, List.lookup_nil]
  by_cases h : c = k
  · simp [h]
  · have : (c == k) = false := by simpa using h
    simp [h, this]

/-- The band, row by row. -/
theorem band_rows {α : Type} (zero : α) (N : ℕ) (hN : 2 ≤ N) (usV usH : α) (ds : List (ReachDeriv α)) (hd : ds.length = N - 1)
    (dsV dsH : α) (c : ℕ) :
    bandAssemble zero N usV usH ds dsV dsH 0 c =
      (if 3 ≤ c ∧ (c - 3) % 2 = 0 then ((ds.map (·.cv1))[(c-3)/2]?).getD zero else zero) ∧
    bandAssemble zero N usV usH ds dsV dsH 1 c =
      (if 3 ≤ c ∧ (c - 3) % 2 = 0 then ((ds.map (·.mv1))[(c-3)/2]?).getD zero
       else if 2 ≤ c ∧ (c - 2) % 2 = 0 then ((ds.map (·.ch1))[(c-2)/2]?).getD zero else if c = 1 then usV else zero) ∧
    bandAssemble zero N usV usH ds dsV dsH 2 c =
      (if c = 2 * N - 1 then dsV
       else if 2 ≤ c ∧ (c - 2) % 2 = 0 then ((ds.map (·.mh1))[(c-2)/2]?).getD zero
       else if 1 ≤ c ∧ (c - 1) % 2 = 0 then ((ds.map (·.cv0))[(c-1)/2]?).getD zero else if c = 0 then usH else zero) ∧
    bandAssemble zero N usV usH ds dsV dsH 3 c =
      (if c = 2 * N - 2 then dsH
       else if 1 ≤ c ∧ (c - 1) % 2 = 0 then ((ds.map (·.mv0))[(c-1)/2]?).getD zero
       else if c % 2 = 0 then ((ds.map (·.ch0))[c/2]?).getD zero else zero) ∧
    bandAssemble zero N usV usH ds dsV dsH 4 c =
      (if c % 2 = 0 then ((ds.map (·.mh0))[c/2]?).getD zero else zero) := by
  have l1 : ∀ f : ReachDeriv α → α, (ds.map f).length = (2*N-2 - 0 + 1)/2 := by intro f; simp; omega
  have l2 : ∀ f : ReachDeriv α → α, (ds.map f).length = (2*N-2 - 1 + 1)/2 := by intro f; simp; omega
  have l3 : ∀ f : ReachDeriv α → α, (ds.map f).length = (2*N - 2 + 1)/2 := by intro f; simp; omega
  have l4 : ∀ f : ReachDeriv α → α, (ds.map f).length = (2*N - 3 + 1)/2 := by intro f; simp; omega
  have q : ∀ (f : ℕ → α) k (x : α) c, setCells f [k] [x] c = if c = k then x else f c := fun f k x c => setCells_one f k x c
  unfold bandAssemble
  refine ⟨?_, ?_, ?_, ?_, ?_⟩
  · simp only [setRow, OfNat.zero_ne_ofNat, zero_ne_one, if_false, if_true]
    rw [setCells_arange2 _ _ _ _ (l4 _)]
  · simp only [setRow, OfNat.one_ne_ofNat, one_ne_zero, if_false, if_true]
    rw [setCells_arange2 _ _ _ _ (l4 _), setCells_arange2 _ _ _ _ (l3 _), q]
    split
    · rename_i h
      rw [if_neg (by omega), if_neg (by omega)]
    · split
      · rename_i h
        rw [if_neg (by omega)]
      · rfl
  · simp only [setRow, OfNat.ofNat_ne_one, if_false, if_true, OfNat.ofNat_ne_zero, Nat.reduceEqDiff]
    rw [q, setCells_arange2 _ _ _ _ (l3 _), setCells_arange2 _ _ _ _ (l2 _), q]
    split
    · rfl
    · split
      · rename_i h
        rw [if_neg (by omega), if_neg (by omega)]
      · split
        · rename_i h
          rw [if_neg (by omega)]
        · rfl
  · simp only [setRow, OfNat.ofNat_ne_one, if_false, if_true, OfNat.ofNat_ne_zero, Nat.reduceEqDiff]
    rw [q, setCells_arange2 _ _ _ _ (l2 _), setCells_arange2 _ _ _ _ (l1 _)]
    simp only [Nat.zero_le, true_and, Nat.sub_zero]
    split
    · rfl
    · split
      · rename_i h
        rw [if_neg (by omega)]
      · rfl
  · simp only [setRow, OfNat.ofNat_ne_one, if_false, if_true, OfNat.ofNat_ne_zero, Nat.reduceEqDiff]
    rw [setCells_arange2 _ _ _ _ (l1 _)]
    simp only [Nat.zero_le, true_and, Nat.sub_zero]

/-- Band storage of the system matrix. -/
theorem band_layout {α : Type} (zero : α) (N : ℕ) (hN : 2 ≤ N) (usV usH : α) (ds : List (ReachDeriv α)) (hd : ds.length = N - 1)
    (dsV dsH : α) (i j : ℕ) (hi : i < 2 * N) (hj : j < 2 * N) (h1 : i ≤ j + 2) (h2 : j ≤ i + 2) :
    banded (bandAssemble zero N usV usH ds dsV dsH) i j =
      systemMatrix zero N [usH, usV] (fun r => (ds[r]?.map (fun d => [d.ch0, d.cv0, d.ch1, d.cv1])).getD [])
        (fun r => (ds[r]?.map (fun d => [d.mh0, d.mv0, d.mh1, d.mv1])).getD []) [dsH, dsV] i j := by
  obtain ⟨r0, r1, r2, r3, r4⟩ := band_rows zero N hN usV usH ds hd dsV dsH j
  unfold banded systemMatrix place
  by_cases hi0 : i = 0
  · subst hi0
    rw [if_pos rfl]
    have hj' : j = 0 ∨ j = 1 ∨ j = 2 := by omega
    rcases hj' with rfl | rfl | rfl
    · rw [show 2 + 0 - 0 = 2 from rfl, r2, if_neg (by omega)]; simp
    · rw [show 2 + 0 - 1 = 1 from rfl, r1]; simp
    · rw [show 2 + 0 - 2 = 0 from rfl, r0]; simp
  rw [if_neg hi0]
  by_cases hiN : i = 2 * N - 1
  · rw [if_pos hiN]
    have hj' : j = 2*N-3 ∨ j = 2*N-2 ∨ j = 2*N-1 := by omega
    rcases hj' with h | h | h
    · rw [show 2 + i - j = 4 by omega, r4, if_neg (by omega), if_neg (by omega)]
    · rw [show 2 + i - j = 3 by omega, r3, if_pos h, if_pos (by omega), h]; simp
    · rw [show 2 + i - j = 2 by omega, r2, if_pos h, if_pos (by omega), h]
      rw [show 2 * N - 1 - (2 * N - 2) = 1 by omega]; simp
  rw [if_neg hiN]
  by_cases hodd : i % 2 = 1
  · obtain ⟨r, rfl⟩ : ∃ r, i = 2 * r + 1 := ⟨(i-1)/2, by omega⟩
    have hr : r < ds.length := by omega
    rw [if_pos hodd, show (2*r+1-1)/2 = r by omega, show 2 * r + 1 - 1 = 2 * r by omega]
    beta_reduce
    rw [List.getElem?_eq_getElem hr]
    have hj' : (j + 1 = 2 * r) ∨ j = 2*r ∨ j = 2*r+1 ∨ j = 2*r+2 ∨ j = 2*r+3 := by omega
    rcases hj' with h | h | h | h | h
    · rw [show 2 + (2*r+1) - j = 4 by omega, r4, if_neg (by omega), if_neg (by omega)]
    · rw [show 2 + (2*r+1) - j = 3 by omega, r3, if_neg (by omega), if_neg (by omega), if_pos (by omega), if_pos (by omega),
        show j / 2 = r by omega, show j - 2 * r = 0 by omega]
      simp [hr]
    · rw [show 2 + (2*r+1) - j = 2 by omega, r2, if_neg (by omega), if_neg (by omega), if_pos (by omega), if_pos (by omega),
        show (j - 1) / 2 = r by omega, show j - 2 * r = 1 by omega]
      simp [hr]
    · rw [show 2 + (2*r+1) - j = 1 by omega, r1, if_neg (by omega), if_pos (by omega), if_pos (by omega),
        show (j - 2) / 2 = r by omega, show j - 2 * r = 2 by omega]
      simp [hr]
    · rw [show 2 + (2*r+1) - j = 0 by omega, r0, if_pos (by omega), if_pos (by omega),
        show (j - 3) / 2 = r by omega, show j - 2 * r = 3 by omega]
      simp [hr]
  · obtain ⟨r, rfl⟩ : ∃ r, i = 2 * r + 2 := ⟨(i-2)/2, by omega⟩
    have hr : r < ds.length := by omega
    rw [if_neg hodd, show (2*r+2-2)/2 = r by omega, show 2 * r + 2 - 2 = 2 * r by omega]
    beta_reduce
    rw [List.getElem?_eq_getElem hr]
    have hj' : j = 2*r ∨ j = 2*r+1 ∨ j = 2*r+2 ∨ j = 2*r+3 ∨ j = 2*r+4 := by omega
    rcases hj' with h | h | h | h | h
    · rw [show 2 + (2*r+2) - j = 4 by omega, r4, if_pos (by omega), if_pos (by omega),
        show j / 2 = r by omega, show j - 2 * r = 0 by omega]
      simp [hr]
    · rw [show 2 + (2*r+2) - j = 3 by omega, r3, if_neg (by omega), if_pos (by omega), if_pos (by omega),
        show (j - 1) / 2 = r by omega, show j - 2 * r = 1 by omega]
      simp [hr]
    · rw [show 2 + (2*r+2) - j = 2 by omega, r2, if_neg (by omega), if_pos (by omega), if_pos (by omega),
        show (j - 2) / 2 = r by omega, show j - 2 * r = 2 by omega]
      simp [hr]
    · rw [show 2 + (2*r+2) - j = 1 by omega, r1, if_pos (by omega), if_pos (by omega),
        show (j - 3) / 2 = r by omega, show j - 2 * r = 3 by omega]
      simp [hr]
    · rw [show 2 + (2*r+2) - j = 0 by omega, r0, if_neg (by omega), if_pos (by omega),
        show j - 2 * r = 4 by omega]
      simp

/-- The residual vector, entry by entry. -/
theorem errAssemble_get {α : Type} (zero : α) (N : ℕ) (hN : 2 ≤ N) (us : α) (cont mom : List α) (dsErr : α)
    (hc : cont.length = N - 1) (hm : mom.length = N - 1) (i : ℕ) (hi : i < 2 * N) :
    (errAssemble zero N us cont mom dsErr)[i]? =
      if i = 0 then some us else if i = 2 * N - 1 then some dsErr
      else if i % 2 = 1 then cont[(i-1)/2]? else mom[(i-2)/2]? := by
  unfold errAssemble
  rw [List.getElem?_map, List.getElem?_range hi, Option.map_some]
  simp only [setCells_one]
  rw [setCells_arange2 _ _ _ _ (by omega), setCells_arange2 _ _ _ _ (by omega)]
  simp only [setCells_one]
  by_cases h0 : i = 0
  · subst h0
    rw [if_neg (by omega)]; simp
  simp only [if_neg h0]
  by_cases hl : i = 2 * N - 1
  · simp only [if_pos hl]
  simp only [if_neg hl]
  by_cases ho : i % 2 = 1
  · rw [if_pos ho, if_neg (by omega), if_pos (by omega), List.getElem?_eq_getElem (by omega)]; rfl
  · rw [if_neg ho, if_pos (by omega), List.getElem?_eq_getElem (by omega)]; rfl

theorem errAssemble_length {α : Type} (zero : α) (N : ℕ) (us : α) (cont mom : List α) (dsErr : α) :
    (errAssemble zero N us cont mom dsErr).length = 2 * N := by simp [errAssemble]

/-! ### States with numeric entries -/

/-- Fixed data of a channel: nodes and reaches, as reals. -/
structure PreStat where
  z : ℕ → ℝ
  B : ℕ → ℝ
  Be : ℕ → ℝ
  SeepLen : ℕ → ℝ
  S0 : ℕ → ℝ
  dtdx : ℕ → ℝ
  C1 : ℕ → ℝ
  C2 : ℕ → ℝ

/-- Node `k` in the state vector `x = h₀ V₀ h₁ V₁ …`, with area and friction slope up to date. -/
noncomputable def nodeOf (p : PrePars) (st : PreStat) (x : ℕ → ℝ) (k : ℕ) : PreNode :=
  { z := fin (st.z k), B := fin (st.B k), Be := fin (st.Be k), h := fin (x (2*k)), V := fin (x (2*k+1)),
    A := fin (x (2*k)) * fin (st.B k), Sf := preSf p (fin (x (2*k))) (fin (x (2*k+1))) }

noncomputable def nodesOf (p : PrePars) (st : PreStat) (N : ℕ) (x : ℕ → ℝ) : List PreNode :=
  (List.range N).map (nodeOf p st x)
def reachOf (st : PreStat) (r : ℕ) : PreReach :=
  { SeepLen := fin (st.SeepLen r), S0 := fin (st.S0 r), dtdx := fin (st.dtdx r) }
def reachesOf (st : PreStat) (N : ℕ) : List PreReach := (List.range (N-1)).map (reachOf st)
def constsOf (st : PreStat) (N : ℕ) : List (Fl ℝ × Fl ℝ) := (List.range (N-1)).map (fun r => (fin (st.C1 r), fin (st.C2 r)))

theorem preReaches_of (p : PrePars) (st : PreStat) (N : ℕ) (x : ℕ → ℝ) :
    preReaches (reachesOf st N) (nodesOf p st N x) =
      (List.range (N-1)).map (fun r => (reachOf st r, nodeOf p st x r, nodeOf p st x (r+1))) := by
  apply List.ext_getElem
  · simp [preReaches, reachesOf, nodesOf]
  · intro i h1 h2
    simp [preReaches, reachesOf, nodesOf]

/-- Continuity and momentum residuals of a reach as real functions. -/
noncomputable def contR (p : PrePars) (st : PreStat) (r : ℕ) (h0 V0 h1 V1 : ℝ) : ℝ :=
  h1 * st.Be (r+1) + h0 * st.Be r + 2 * st.dtdx r * p.Theta * (V1 * (h1 * st.B (r+1)) - V0 * (h0 * st.B r))
    + st.SeepLen r * (p.dt * p.P * p.Theta) * (h1 + h0) - st.C1 r

noncomputable def sfR (p : PrePars) (h V : ℝ) : ℝ := V * |V| * p.n ^ 2 / h ^ (4/3 : ℝ)

noncomputable def momR (p : PrePars) (st : PreStat) (r : ℕ) (h0 V0 h1 V1 : ℝ) : ℝ :=
  V0 * (h0 * st.B r) + V1 * (h1 * st.B (r+1))
    + 2 * p.Beta * st.dtdx r * p.Theta * (V1 * |V1| * (h1 * st.B (r+1)) - V0 * |V0| * (h0 * st.B r))
    + p.g * st.dtdx r * p.Theta * (h1 * st.B (r+1) + h0 * st.B r) * (h1 - h0)
    - p.g * p.dt * p.Theta * (h1 * st.B (r+1) * (st.S0 r - sfR p h1 V1) + h0 * st.B r * (st.S0 r - sfR p h0 V0))
    - st.C2 r

theorem preSf_fin (p : PrePars) {h : ℝ} (hh : 0 < h) (V : ℝ) : preSf p (fin h) (fin V) = fin (sfR p h V) := by
  unfold preSf sfR
  rw [npPow_pos hh]
  simp only [abs_fin, mul_fin]
  rw [div_fin _ _ (by positivity)]

theorem preCont_of (p : PrePars) (st : PreStat) (x : ℕ → ℝ) (r : ℕ) :
    preCont p (fin (st.C1 r)) (reachOf st r) (nodeOf p st x r) (nodeOf p st x (r+1)) =
      fin (contR p st r (x (2*r)) (x (2*r+1)) (x (2*r+2)) (x (2*r+3))) := by
  simp only [preCont, reachOf, nodeOf, mul_fin, add_fin, sub_fin, contR]
  rfl

theorem preMom_of (p : PrePars) (st : PreStat) (x : ℕ → ℝ) (r : ℕ) (h0 : 0 < x (2*r)) (h1 : 0 < x (2*r+2)) :
    preMom p (fin (st.C2 r)) (reachOf st r) (nodeOf p st x r) (nodeOf p st x (r+1)) =
      fin (momR p st r (x (2*r)) (x (2*r+1)) (x (2*r+2)) (x (2*r+3))) := by
  have e : 2 * (r+1) = 2*r+2 := by ring
  simp only [preMom, reachOf, nodeOf, e]
  rw [preSf_fin p h0, preSf_fin p h1]
  simp only [mul_fin, add_fin, sub_fin, abs_fin, momR]

/-! ### Derivatives of the residuals -/

theorem hasDerivAt_affine {F : ℝ → ℝ} (a m x : ℝ) (h : ∀ t, F t = a + m * t) : HasDerivAt F m x := by
  have : F = fun t => a + m * t := funext h
  rw [this]
  simpa using ((hasDerivAt_id x).const_mul m).const_add a

theorem contR_dh0 (p : PrePars) (st : PreStat) (r : ℕ) (h0 V0 h1 V1 : ℝ) :
    HasDerivAt (fun t => contR p st r t V0 h1 V1)
      (st.Be r - 2 * st.dtdx r * p.Theta * V0 * st.B r + st.SeepLen r * (p.dt * p.P * p.Theta)) h0 :=
  hasDerivAt_affine (contR p st r 0 V0 h1 V1) _ _ (by intro t; unfold contR; ring)

theorem contR_dV0 (p : PrePars) (st : PreStat) (r : ℕ) (h0 V0 h1 V1 : ℝ) :
    HasDerivAt (fun t => contR p st r h0 t h1 V1) (-2 * st.dtdx r * p.Theta * (h0 * st.B r)) V0 :=
  hasDerivAt_affine (contR p st r h0 0 h1 V1) _ _ (by intro t; unfold contR; ring)

theorem contR_dh1 (p : PrePars) (st : PreStat) (r : ℕ) (h0 V0 h1 V1 : ℝ) :
    HasDerivAt (fun t => contR p st r h0 V0 t V1)
      (st.Be (r+1) + 2 * st.dtdx r * p.Theta * V1 * st.B (r+1) + st.SeepLen r * (p.dt * p.P * p.Theta)) h1 :=
  hasDerivAt_affine (contR p st r h0 V0 0 V1) _ _ (by intro t; unfold contR; ring)

theorem contR_dV1 (p : PrePars) (st : PreStat) (r : ℕ) (h0 V0 h1 V1 : ℝ) :
    HasDerivAt (fun t => contR p st r h0 V0 h1 t) (2 * st.dtdx r * p.Theta * (h1 * st.B (r+1))) V1 :=
  hasDerivAt_affine (contR p st r h0 V0 h1 0) _ _ (by intro t; unfold contR; ring)

/-- `t / t^(4/3)` has derivative `-(1/3) / t^(4/3)`. -/
theorem hasDerivAt_conv {x : ℝ} (hx : 0 < x) :
    HasDerivAt (fun t : ℝ => t / t ^ (4/3 : ℝ)) (-(1/3) / x ^ (4/3 : ℝ)) x := by
  have e : (fun t : ℝ => t / t ^ (4/3 : ℝ)) =ᶠ[nhds x] fun t => t ^ (-(1/3) : ℝ) := by
    filter_upwards [lt_mem_nhds hx] with t ht
    rw [show (-(1/3) : ℝ) = 1 - 4/3 by norm_num, Real.rpow_sub ht, Real.rpow_one]
  refine HasDerivAt.congr_of_eventuallyEq ?_ e
  have := Real.hasDerivAt_rpow_const (x := x) (p := -(1/3)) (Or.inl hx.ne')
  refine this.congr_deriv ?_
  rw [show (-(1/3) - 1 : ℝ) = -(4/3) by norm_num, Real.rpow_neg hx.le]
  rfl

/-- `t |t|` has derivative `2 |t|`. -/
theorem hasDerivAt_mul_abs (x : ℝ) (hx : x ≠ 0) : HasDerivAt (fun t : ℝ => t * |t|) (2 * |x|) x := by
  have h1 : HasDerivAt (fun t : ℝ => t * |t|) _ x := (hasDerivAt_id x).mul (hasDerivAt_abs hx)
  refine h1.congr_deriv ?_
  rcases lt_or_gt_of_ne hx with h | h
  · simp [abs_of_neg h, sign_neg h]; ring
  · simp [abs_of_pos h, sign_pos h]; ring

theorem hasDerivAt_quad_conv {F : ℝ → ℝ} (a b c d : ℝ) {x : ℝ} (hx : 0 < x)
    (h : ∀ t, 0 < t → F t = a + b * t + c * t ^ 2 + d * (t / t ^ (4/3 : ℝ))) :
    HasDerivAt F (b + 2 * c * x + d * (-(1/3) / x ^ (4/3 : ℝ))) x := by
  have e : F =ᶠ[nhds x] fun t => a + b * t + c * t ^ 2 + d * (t / t ^ (4/3 : ℝ)) := by
    filter_upwards [lt_mem_nhds hx] with t ht using h t ht
  refine HasDerivAt.congr_of_eventuallyEq ?_ e
  have h1 := ((hasDerivAt_id x).const_mul b).const_add a
  have h2 := ((hasDerivAt_id x).pow 2).const_mul c
  have h3 := (hasDerivAt_conv hx).const_mul d
  have h4 : HasDerivAt (fun t => a + b * t + c * t ^ 2 + d * (t / t ^ (4/3 : ℝ))) _ x := (h1.add h2).add h3
  refine h4.congr_deriv ?_
  simp
  ring

theorem hasDerivAt_mulabs {F : ℝ → ℝ} (a b c x : ℝ) (hx : x ≠ 0) (h : ∀ t, F t = a + b * t + c * (t * |t|)) :
    HasDerivAt F (b + 2 * c * |x|) x := by
  have e : F = fun t => a + b * t + c * (t * |t|) := funext h
  rw [e]
  have h1 := ((hasDerivAt_id x).const_mul b).const_add a
  have h2 := (hasDerivAt_mul_abs x hx).const_mul c
  have h3 : HasDerivAt (fun t => a + b * t + c * (t * |t|)) _ x := h1.add h2
  refine h3.congr_deriv ?_
  ring

theorem momR_dh0 (p : PrePars) (st : PreStat) (r : ℕ) (h0 V0 h1 V1 : ℝ) (hh : 0 < h0) :
    HasDerivAt (fun t => momR p st r t V0 h1 V1)
      (V0 * st.B r - 2 * p.Beta * st.dtdx r * p.Theta * |V0| * V0 * st.B r
        + p.g * p.Theta * st.dtdx r * (-2 * (h0 * st.B r) + st.B r * h1 - h1 * st.B (r+1))
        - p.g * p.dt * p.Theta * st.B r * (st.S0 r + 1/3 * sfR p h0 V0)) h0 := by
  have := hasDerivAt_quad_conv (F := fun t => momR p st r t V0 h1 V1)
    (V1 * (h1 * st.B (r+1)) + 2 * p.Beta * st.dtdx r * p.Theta * (V1 * |V1| * (h1 * st.B (r+1)))
      + p.g * st.dtdx r * p.Theta * (h1 * st.B (r+1)) * h1
      - p.g * p.dt * p.Theta * (h1 * st.B (r+1) * (st.S0 r - sfR p h1 V1)) - st.C2 r)
    (V0 * st.B r - 2 * p.Beta * st.dtdx r * p.Theta * (V0 * |V0| * st.B r)
      + p.g * st.dtdx r * p.Theta * (st.B r * h1 - h1 * st.B (r+1)) - p.g * p.dt * p.Theta * st.B r * st.S0 r)
    (-(p.g * st.dtdx r * p.Theta * st.B r))
    (p.g * p.dt * p.Theta * st.B r * (V0 * |V0| * p.n ^ 2)) hh
    (by intro t ht; simp only [momR, sfR]; ring)
  refine this.congr_deriv ?_
  simp only [sfR]; ring

theorem momR_dh1 (p : PrePars) (st : PreStat) (r : ℕ) (h0 V0 h1 V1 : ℝ) (hh : 0 < h1) :
    HasDerivAt (fun t => momR p st r h0 V0 t V1)
      (V1 * st.B (r+1) + 2 * p.Beta * st.dtdx r * p.Theta * |V1| * V1 * st.B (r+1)
        + p.g * p.Theta * st.dtdx r * (2 * (h1 * st.B (r+1)) - st.B (r+1) * h0 + h0 * st.B r)
        - p.g * p.dt * p.Theta * st.B (r+1) * (st.S0 r + 1/3 * sfR p h1 V1)) h1 := by
  have := hasDerivAt_quad_conv (F := fun t => momR p st r h0 V0 t V1)
    (V0 * (h0 * st.B r) - 2 * p.Beta * st.dtdx r * p.Theta * (V0 * |V0| * (h0 * st.B r))
      - p.g * st.dtdx r * p.Theta * (h0 * st.B r) * h0
      - p.g * p.dt * p.Theta * (h0 * st.B r * (st.S0 r - sfR p h0 V0)) - st.C2 r)
    (V1 * st.B (r+1) + 2 * p.Beta * st.dtdx r * p.Theta * (V1 * |V1| * st.B (r+1))
      + p.g * st.dtdx r * p.Theta * (h0 * st.B r - st.B (r+1) * h0) - p.g * p.dt * p.Theta * st.B (r+1) * st.S0 r)
    (p.g * st.dtdx r * p.Theta * st.B (r+1))
    (p.g * p.dt * p.Theta * st.B (r+1) * (V1 * |V1| * p.n ^ 2)) hh
    (by intro t ht; simp only [momR, sfR]; ring)
  refine this.congr_deriv ?_
  simp only [sfR]; ring

theorem momR_dV0 (p : PrePars) (st : PreStat) (r : ℕ) (h0 V0 h1 V1 : ℝ) (hV : V0 ≠ 0) :
    HasDerivAt (fun t => momR p st r h0 t h1 V1)
      (h0 * st.B r - 4 * p.Beta * st.dtdx r * p.Theta * |V0| * (h0 * st.B r)
        + 2 * (p.g * p.dt * p.Theta) * (h0 * st.B r) * sfR p h0 V0 / V0) V0 := by
  have := hasDerivAt_mulabs (F := fun t => momR p st r h0 t h1 V1)
    (momR p st r h0 0 h1 V1) (h0 * st.B r)
    (-(2 * p.Beta * st.dtdx r * p.Theta * (h0 * st.B r)) + p.g * p.dt * p.Theta * (h0 * st.B r) * (p.n ^ 2 / h0 ^ (4/3 : ℝ)))
    V0 hV (by intro t; simp only [momR, sfR]; ring)
  refine this.congr_deriv ?_
  simp only [sfR]
  field_simp
  ring

theorem momR_dV1 (p : PrePars) (st : PreStat) (r : ℕ) (h0 V0 h1 V1 : ℝ) (hV : V1 ≠ 0) :
    HasDerivAt (fun t => momR p st r h0 V0 h1 t)
      (h1 * st.B (r+1) + 4 * p.Beta * st.dtdx r * p.Theta * |V1| * (h1 * st.B (r+1))
        + 2 * (p.g * p.dt * p.Theta) * (h1 * st.B (r+1)) * sfR p h1 V1 / V1) V1 := by
  have := hasDerivAt_mulabs (F := fun t => momR p st r h0 V0 h1 t)
    (momR p st r h0 V0 h1 0) (h1 * st.B (r+1))
    (2 * p.Beta * st.dtdx r * p.Theta * (h1 * st.B (r+1)) + p.g * p.dt * p.Theta * (h1 * st.B (r+1)) * (p.n ^ 2 / h1 ^ (4/3 : ℝ)))
    V1 hV (by intro t; simp only [momR, sfR]; ring)
  refine this.congr_deriv ?_
  simp only [sfR]
  field_simp
  ring

end Verif.Model
