import Verif.Lemmas.Preissmann

set_option autoImplicit false

set_option linter.unusedSectionVars false

namespace Verif.Model
open Verif Fl Real Verif.Spec

/-- The residual vector as a real function of the state vector. -/
noncomputable def resR (p : PrePars) (st : PreStat) (N : ℕ) (Closed : Bool) (Q Ds : ℝ) (x : ℕ → ℝ) (i : ℕ) : ℝ :=
  if i = 0 then x 0 * st.B 0 * x 1 - Q
  else if i = 2 * N - 1 then (if Closed then x (2*N-2) * x (2*N-1) else st.z (N-1) + x (2*N-2) - Ds)
  else if i % 2 = 1 then contR p st ((i-1)/2) (x (i-1)) (x i) (x (i+1)) (x (i+2))
  else momR p st ((i-2)/2) (x (i-2)) (x (i-1)) (x i) (x (i+1))

theorem ixGet_nodes (p : PrePars) (st : PreStat) (N : ℕ) (hN : 0 < N) (x : ℕ → ℝ) :
    ixGet (nodesOf p st N x) 0 = .ok (nodeOf p st x 0) := by
  unfold ixGet nodesOf
  rw [List.getElem?_map, List.getElem?_range hN]; rfl

theorem pyGet_nodes (p : PrePars) (st : PreStat) (N : ℕ) (hN : 0 < N) (x : ℕ → ℝ) :
    pyGet (nodesOf p st N x) (-1) = .ok (nodeOf p st x (N-1)) := by
  have hl : (nodesOf p st N x).length = N := by simp [nodesOf]
  unfold pyGet
  rw [if_neg (by omega), if_pos (by omega), hl]
  have : ((N : ℤ) + -1).toNat = N - 1 := by omega
  rw [this]
  unfold ixGet nodesOf
  rw [List.getElem?_map, List.getElem?_range (by omega)]; rfl

theorem preErr_of (p : PrePars) (st : PreStat) (N : ℕ) (hN : 2 ≤ N) (Closed : Bool) (Q Ds : ℝ) (x : ℕ → ℝ)
    (hx : ∀ k < N, 0 < x (2*k)) :
    ∃ e, preErr p Closed Q Ds (constsOf st N) (reachesOf st N) (nodesOf p st N x) = .ok e ∧ e.length = 2 * N ∧
      ∀ i < 2 * N, e[i]? = some (fin (resR p st N Closed Q Ds x i)) := by
  unfold preErr
  rw [ixGet_nodes p st N (by omega), pyGet_nodes p st N (by omega), preReaches_of]
  have hl : (nodesOf p st N x).length = N := by simp [nodesOf]
  simp only [bind, Except.bind, pure, Except.pure, hl]
  refine ⟨_, rfl, errAssemble_length _ _ _ _ _ _, ?_⟩
  intro i hi
  rw [errAssemble_get _ N hN _ _ _ _ (by simp [constsOf]) (by simp [constsOf]) i hi]
  unfold resR
  by_cases h0 : i = 0
  · rw [if_pos h0, if_pos h0]
    simp only [nodeOf, mul_fin, sub_fin]
  rw [if_neg h0, if_neg h0]
  by_cases h1 : i = 2 * N - 1
  · rw [if_pos h1, if_pos h1]
    have e1 : 2 * (N - 1) = 2 * N - 2 := by omega
    have e2 : 2 * N - 2 + 1 = 2 * N - 1 := by omega
    cases Closed <;> simp [nodeOf, e1, e2]
  rw [if_neg h1, if_neg h1]
  by_cases h2 : i % 2 = 1
  · rw [if_pos h2, if_pos h2]
    obtain ⟨r, rfl⟩ : ∃ r, i = 2 * r + 1 := ⟨(i-1)/2, by omega⟩
    rw [show (2*r+1-1)/2 = r by omega, show 2*r+1-1 = 2*r by omega]
    have hr : r < N - 1 := by omega
    simp only [constsOf, List.getElem?_zipWith, List.getElem?_map, List.getElem?_range hr, Option.map_some]
    rw [preCont_of]
  · rw [if_neg h2, if_neg h2]
    obtain ⟨r, rfl⟩ : ∃ r, i = 2 * r + 2 := ⟨(i-2)/2, by omega⟩
    rw [show (2*r+2-2)/2 = r by omega, show 2*r+2-2 = 2*r by omega, show 2*r+2-1 = 2*r+1 by omega]
    have hr : r < N - 1 := by omega
    simp only [constsOf, List.getElem?_zipWith, List.getElem?_map, List.getElem?_range hr, Option.map_some]
    rw [preMom_of p st x r (hx r (by omega)) (by have := hx (r+1) (by omega); rwa [show 2*(r+1) = 2*r+2 by ring] at this)]

/-- The eight entries as coded, with `w` in place of `|V|` in the velocity derivatives. -/
noncomputable def derivR (p : PrePars) (st : PreStat) (x : ℕ → ℝ) (w : ℝ → ℝ) (r : ℕ) : ReachDeriv ℝ :=
  let h0 := x (2*r); let V0 := x (2*r+1); let h1 := x (2*r+2); let V1 := x (2*r+3)
  { ch0 := st.Be r - 2 * st.dtdx r * p.Theta * V0 * st.B r + st.SeepLen r * (p.dt * p.P * p.Theta)
    cv0 := -2 * st.dtdx r * p.Theta * (h0 * st.B r)
    ch1 := st.Be (r+1) + 2 * st.dtdx r * p.Theta * V1 * st.B (r+1) + st.SeepLen r * (p.dt * p.P * p.Theta)
    cv1 := 2 * st.dtdx r * p.Theta * (h1 * st.B (r+1))
    mh0 := V0 * st.B r - 2 * p.Beta * st.dtdx r * p.Theta * |V0| * V0 * st.B r
        + p.g * p.Theta * st.dtdx r * (-2 * (h0 * st.B r) + st.B r * h1 - h1 * st.B (r+1))
        - p.g * p.dt * p.Theta * st.B r * (st.S0 r + 1/3 * sfR p h0 V0)
    mv0 := h0 * st.B r - 4 * p.Beta * st.dtdx r * p.Theta * w V0 * (h0 * st.B r)
        + 2 * (p.g * p.dt * p.Theta) * (h0 * st.B r) * sfR p h0 V0 / V0
    mh1 := V1 * st.B (r+1) + 2 * p.Beta * st.dtdx r * p.Theta * |V1| * V1 * st.B (r+1)
        + p.g * p.Theta * st.dtdx r * (2 * (h1 * st.B (r+1)) - st.B (r+1) * h0 + h0 * st.B r)
        - p.g * p.dt * p.Theta * st.B (r+1) * (st.S0 r + 1/3 * sfR p h1 V1)
    mv1 := h1 * st.B (r+1) + 4 * p.Beta * st.dtdx r * p.Theta * w V1 * (h1 * st.B (r+1))
        + 2 * (p.g * p.dt * p.Theta) * (h1 * st.B (r+1)) * sfR p h1 V1 / V1 }

def ReachDeriv.map {α β : Type} (f : α → β) (d : ReachDeriv α) : ReachDeriv β :=
  ⟨f d.ch0, f d.cv0, f d.ch1, f d.cv1, f d.mh0, f d.mv0, f d.mh1, f d.mv1⟩

theorem preDeriv_of (p : PrePars) (st : PreStat) (x : ℕ → ℝ) (r : ℕ) (h0 : 0 < x (2*r)) (h1 : 0 < x (2*r+2))
    (v0 : x (2*r+1) ≠ 0) (v1 : x (2*r+3) ≠ 0) :
    preDeriv p (reachOf st r) (nodeOf p st x r) (nodeOf p st x (r+1)) = (derivR p st x (fun v => v) r).map fin := by
  have e : 2 * (r+1) = 2*r+2 := by ring
  have e' : 2 * r + 2 + 1 = 2 * r + 3 := by ring
  unfold preDeriv
  simp only [reachOf, nodeOf, e, e', preSf_fin p h0, preSf_fin p h1]
  simp only [mul_fin, add_fin, sub_fin, abs_fin, div_fin _ _ v0, div_fin _ _ v1, ReachDeriv.map, derivR]

/-- The matrix of entries, indexed by equation and unknown. -/
noncomputable def jacR (p : PrePars) (st : PreStat) (N : ℕ) (Closed : Bool) (x : ℕ → ℝ) (w : ℝ → ℝ) (i j : ℕ) : ℝ :=
  systemMatrix 0 N [x 1 * st.B 0, x 0 * st.B 0]
    (fun r => let d := derivR p st x w r; [d.ch0, d.cv0, d.ch1, d.cv1])
    (fun r => let d := derivR p st x w r; [d.mh0, d.mv0, d.mh1, d.mv1])
    [if Closed then x (2*N-1) else 1, if Closed then x (2*N-2) else 0] i j

theorem place_map {α β : Type} (f : α → β) (zero : α) (s : ℕ) (l : List α) (j : ℕ) :
    place (f zero) s (l.map f) j = f (place zero s l j) := by
  unfold place
  split
  · rw [List.getElem?_map]
    cases l[j - s]? <;> rfl
  · rfl

theorem preBand_of (p : PrePars) (st : PreStat) (N : ℕ) (hN : 2 ≤ N) (Closed : Bool) (x : ℕ → ℝ)
    (hx : ∀ k < N, 0 < x (2*k)) (hV : ∀ k < N, x (2*k+1) ≠ 0) :
    ∃ band, preBand p Closed (reachesOf st N) (nodesOf p st N x) = .ok band ∧
      ∀ i j, i < 2 * N → j < 2 * N → i ≤ j + 2 → j ≤ i + 2 →
        banded band i j = fin (jacR p st N Closed x (fun v => v) i j) := by
  unfold preBand
  rw [ixGet_nodes p st N (by omega), pyGet_nodes p st N (by omega), preReaches_of]
  have hl : (nodesOf p st N x).length = N := by simp [nodesOf]
  simp only [bind, Except.bind, pure, Except.pure, hl]
  refine ⟨_, rfl, ?_⟩
  intro i j hi hj h1 h2
  rw [band_layout (fin 0) N hN _ _ _ (by simp) _ _ i j hi hj h1 h2]
  unfold jacR systemMatrix
  by_cases i0 : i = 0
  · rw [if_pos i0, if_pos i0, ← place_map fin]; rfl
  rw [if_neg i0, if_neg i0]
  by_cases iN : i = 2 * N - 1
  · rw [if_pos iN, if_pos iN, ← place_map fin]
    have e1 : 2 * (N - 1) = 2 * N - 2 := by omega
    have e2 : 2 * N - 2 + 1 = 2 * N - 1 := by omega
    cases Closed <;> simp [nodeOf, e1, e2]
  rw [if_neg iN, if_neg iN]
  have key : ∀ r < N - 1, preDeriv p (reachOf st r) (nodeOf p st x r) (nodeOf p st x (r+1)) =
      (derivR p st x (fun v => v) r).map fin := by
    intro r hr
    have a := hx (r+1) (by omega)
    have b := hV (r+1) (by omega)
    rw [show 2*(r+1) = 2*r+2 by ring] at a b
    exact preDeriv_of p st x r (hx r (by omega)) a (hV r (by omega)) b
  by_cases io : i % 2 = 1
  · have hr : (i-1)/2 < N - 1 := by omega
    rw [if_pos io, if_pos io, ← place_map fin]
    simp only [List.getElem?_map, List.getElem?_range hr, Option.map_some, Option.getD_some, key _ hr]
    rfl
  · have hr : (i-2)/2 < N - 1 := by omega
    rw [if_neg io, if_neg io, ← place_map fin]
    simp only [List.getElem?_map, List.getElem?_range hr, Option.map_some, Option.getD_some, key _ hr]
    rfl

theorem place_out {α : Type} (zero : α) (s : ℕ) (l : List α) (j : ℕ) (h : j < s ∨ s + l.length ≤ j) :
    place zero s l j = zero := by
  unfold place
  split
  · rw [List.getElem?_eq_none (by omega)]; rfl
  · rfl

/-- Every residual, differentiated in every unknown, gives the matrix with `|V|`. -/
theorem resR_deriv (p : PrePars) (st : PreStat) (N : ℕ) (hN : 2 ≤ N) (Closed : Bool) (Q Ds : ℝ) (x : ℕ → ℝ)
    (hx : ∀ k < N, 0 < x (2*k)) (hV : ∀ k < N, x (2*k+1) ≠ 0) (i j : ℕ) (hi : i < 2 * N) :
    HasDerivAt (fun t => resR p st N Closed Q Ds (Function.update x j t) i) (jacR p st N Closed x (fun v => |v|) i j) (x j) := by
  have up : ∀ (k : ℕ) (t : ℝ), k ≠ j → Function.update x j t k = x k := fun k t h => Function.update_of_ne h _ _
  have us : ∀ t : ℝ, Function.update x j t j = t := fun t => Function.update_self _ _ _
  unfold resR jacR systemMatrix
  by_cases i0 : i = 0
  · simp only [if_pos i0]
    by_cases j0 : j = 0
    · subst j0
      simp only [us, up 1 _ (by omega)]
      exact hasDerivAt_affine (-Q) _ _ (by intro t; simp [place]; ring)
    by_cases j1 : j = 1
    · subst j1
      simp only [us, up 0 _ (by omega)]
      exact hasDerivAt_affine (-Q) _ _ (by intro t; simp [place]; ring)
    simp only [up 0 _ (Ne.symm j0), up 1 _ (Ne.symm j1)]
    rw [place_out _ _ _ _ (by simp; omega)]
    exact hasDerivAt_const _ _
  simp only [if_neg i0]
  by_cases iN : i = 2 * N - 1
  · simp only [if_pos iN]
    by_cases j0 : j = 2 * N - 2
    · subst j0
      simp only [us, up (2*N-1) _ (by omega)]
      cases Closed
      · exact hasDerivAt_affine (st.z (N-1) - Ds) _ _ (by intro t; simp [place]; ring)
      · exact hasDerivAt_affine 0 _ _ (by intro t; simp [place]; ring)
    by_cases j1 : j = 2 * N - 1
    · subst j1
      simp only [us, up (2*N-2) _ (by omega)]
      have e : 2 * N - 1 - (2 * N - 2) = 1 := by omega
      have e' : 2 * N - 2 ≤ 2 * N - 1 := by omega
      cases Closed
      · exact hasDerivAt_affine (st.z (N-1) + x (2*N-2) - Ds) _ _ (by intro t; simp [place, e, e'])
      · exact hasDerivAt_affine 0 _ _ (by intro t; simp [place, e, e'])
    simp only [up (2*N-2) _ (Ne.symm j0), up (2*N-1) _ (Ne.symm j1)]
    rw [place_out _ _ _ _ (by simp; omega)]
    exact hasDerivAt_const _ _
  simp only [if_neg iN]
  by_cases io : i % 2 = 1
  · simp only [if_pos io]
    obtain ⟨r, rfl⟩ : ∃ r, i = 2 * r + 1 := ⟨(i-1)/2, by omega⟩
    simp only [show 2*r/2 = r by omega, show 2*r+1-1 = 2*r by omega, show 2*r+1+1 = 2*r+2 by omega, show 2*r+1+2 = 2*r+3 by omega]
    by_cases j0 : j = 2*r
    · subst j0
      simp only [us, up (2*r+1) _ (by omega), up (2*r+2) _ (by omega), up (2*r+3) _ (by omega)]
      refine (contR_dh0 p st r _ _ _ _).congr_deriv ?_
      simp [place, derivR]
    by_cases j1 : j = 2*r+1
    · subst j1
      simp only [us, up (2*r) _ (by omega), up (2*r+2) _ (by omega), up (2*r+3) _ (by omega)]
      refine (contR_dV0 p st r _ _ _ _).congr_deriv ?_
      simp [place, derivR]
    by_cases j2 : j = 2*r+2
    · subst j2
      simp only [us, up (2*r) _ (by omega), up (2*r+1) _ (by omega), up (2*r+3) _ (by omega)]
      refine (contR_dh1 p st r _ _ _ _).congr_deriv ?_
      simp [place, derivR]
    by_cases j3 : j = 2*r+3
    · subst j3
      simp only [us, up (2*r) _ (by omega), up (2*r+1) _ (by omega), up (2*r+2) _ (by omega)]
      refine (contR_dV1 p st r _ _ _ _).congr_deriv ?_
      simp [place, derivR]
    simp only [up _ _ (Ne.symm j0), up _ _ (Ne.symm j1), up _ _ (Ne.symm j2), up _ _ (Ne.symm j3)]
    rw [place_out _ _ _ _ (by simp; omega)]
    exact hasDerivAt_const _ _
  · simp only [if_neg io]
    obtain ⟨r, rfl⟩ : ∃ r, i = 2 * r + 2 := ⟨(i-2)/2, by omega⟩
    have a := hx (r+1) (by omega)
    have b := hV (r+1) (by omega)
    rw [show 2*(r+1) = 2*r+2 by ring] at a b
    rw [show 2*r+2+1 = 2*r+3 by ring] at b
    simp only [show 2*r/2 = r by omega, show 2*r+2-2 = 2*r by omega, show 2*r+2-1 = 2*r+1 by omega, show 2*r+2+1 = 2*r+3 by omega]
    by_cases j0 : j = 2*r
    · subst j0
      simp only [us, up (2*r+1) _ (by omega), up (2*r+2) _ (by omega), up (2*r+3) _ (by omega)]
      refine (momR_dh0 p st r _ _ _ _ (hx r (by omega))).congr_deriv ?_
      simp [place, derivR]
    by_cases j1 : j = 2*r+1
    · subst j1
      simp only [us, up (2*r) _ (by omega), up (2*r+2) _ (by omega), up (2*r+3) _ (by omega)]
      refine (momR_dV0 p st r _ _ _ _ (hV r (by omega))).congr_deriv ?_
      simp [place, derivR]
    by_cases j2 : j = 2*r+2
    · subst j2
      simp only [us, up (2*r) _ (by omega), up (2*r+1) _ (by omega), up (2*r+3) _ (by omega)]
      refine (momR_dh1 p st r _ _ _ _ a).congr_deriv ?_
      simp [place, derivR]
    by_cases j3 : j = 2*r+3
    · subst j3
      simp only [us, up (2*r) _ (by omega), up (2*r+1) _ (by omega), up (2*r+2) _ (by omega)]
      refine (momR_dV1 p st r _ _ _ _ b).congr_deriv ?_
      simp [place, derivR]
    simp only [up _ _ (Ne.symm j0), up _ _ (Ne.symm j1), up _ _ (Ne.symm j2), up _ _ (Ne.symm j3)]
    rw [place_out _ _ _ _ (by simp; omega)]
    exact hasDerivAt_const _ _

/-- Outside the band the matrix is zero. -/
theorem jacR_out (p : PrePars) (st : PreStat) (N : ℕ) (hN : 2 ≤ N) (Closed : Bool) (x : ℕ → ℝ) (w : ℝ → ℝ) (i j : ℕ)
    (hi : i < 2 * N) (hj : j < 2 * N) (h : ¬ (i ≤ j + 2 ∧ j ≤ i + 2)) : jacR p st N Closed x w i j = 0 := by
  unfold jacR systemMatrix
  split
  · apply place_out; simp; omega
  split
  · apply place_out; simp; omega
  split
  · apply place_out; simp; omega
  · apply place_out; simp; omega

/-- The coded matrix agrees with the true one in every cell except those of a momentum
equation and a velocity that is not positive. -/
theorem jacR_code (p : PrePars) (st : PreStat) (N : ℕ) (Closed : Bool) (x : ℕ → ℝ) (i j : ℕ) (hj : j < 2 * N) 
    (h : j % 2 = 0 ∨ i % 2 = 1 ∨ i = 0 ∨ 0 < x j) :
    jacR p st N Closed x (fun v => v) i j = jacR p st N Closed x (fun v => |v|) i j := by
  unfold jacR systemMatrix
  by_cases i0 : i = 0
  · simp only [if_pos i0]
  simp only [if_neg i0]
  by_cases iN : i = 2 * N - 1
  · simp only [if_pos iN]
  simp only [if_neg iN]
  by_cases io : i % 2 = 1
  · simp only [if_pos io]; rfl
  simp only [if_neg io]
  by_cases hr : i - 2 ≤ j ∧ j < i + 2
  · obtain ⟨r, rfl⟩ : ∃ r, i = 2 * r + 2 := ⟨(i-2)/2, by omega⟩
    simp only [show 2*r/2 = r by omega, show 2*r+2-2 = 2*r by omega]
    have : j = 2*r ∨ j = 2*r+1 ∨ j = 2*r+2 ∨ j = 2*r+3 := by omega
    rcases this with rfl | rfl | rfl | rfl
    · simp [place, derivR]
    · have hv : 0 < x (2*r+1) := by
        rcases h with h | h | h | h
        · omega
        · omega
        · omega
        · exact h
      simp [place, derivR, abs_of_pos hv]
    · simp [place, derivR]
    · have hv : 0 < x (2*r+3) := by
        rcases h with h | h | h | h
        · omega
        · omega
        · omega
        · exact h
      simp [place, derivR, abs_of_pos hv]
  · rw [place_out, place_out]
    · simp; omega
    · simp; omega

end Verif.Model
