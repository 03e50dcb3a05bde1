import Verif.Model.Steady

set_option autoImplicit false

set_option linter.unusedSectionVars false

namespace Verif.Model
open Verif Fl Real

/-- Hydraulics of one section. -/
structure SteadyPt where
  dep : Fl ℝ
  vel : Fl ℝ
  en : Fl ℝ
  sf : Fl ℝ

noncomputable def mkPt (p : SteadyPars) (z B dep : Fl ℝ) : SteadyPt :=
  { dep := dep, vel := steadyVel p B dep, en := steadyEnergy p z dep (steadyVel p B dep),
    sf := steadySf p dep (steadyVel p B dep) }

/-- The sweep as a recursion from the downstream end (proof device). -/
noncomputable def steadyProf (p : SteadyPars) : List (Fl ℝ) → List (Fl ℝ) → List (Fl ℝ) → Except PyErr (List SteadyPt)
  | _, [z], [B] => .ok [mkPt p z B (npmax (fin p.DsWL - z) (critDep p B))]
  | dx :: dxs, z :: z1 :: zs, B :: Bs => do
      let rest ← steadyProf p dxs (z1 :: zs) Bs
      match rest with
      | [] => .error .index
      | d :: ds => do
        let dep ← steadyDepth p dx z B z1 d.dep d.en d.sf
        return mkPt p z B dep :: d :: ds
  | _, _, _ => .error .index

/-- The arrays hold `pts` from index `m` on. -/
def Holds (N m : ℕ) (s : SteadyArr) (pts : List SteadyPt) : Prop :=
  s.dep.length = N ∧ s.vel.length = N ∧ s.en.length = N ∧ s.sf.length = N ∧
  s.dep.drop m = pts.map (·.dep) ∧ s.vel.drop m = pts.map (·.vel) ∧
  s.en.drop m = pts.map (·.en) ∧ s.sf.drop m = pts.map (·.sf)

theorem drop_set_self {α : Type} (l : List α) (m : ℕ) (a : α) (h : m < l.length) :
    (l.set m a).drop m = a :: l.drop (m+1) := by
  rw [List.drop_eq_getElem_cons (by simpa using h)]
  simp [List.drop_set]

theorem ixGet_of_drop {α : Type} (l : List α) (m : ℕ) (a : α) (t : List α) (h : l.drop m = a :: t) :
    ixGet l m = .ok a := by
  have : l[m]? = some a := by
    have : (l.drop m)[0]? = some a := by rw [h]; rfl
    simpa using this
  simp [ixGet, this]

theorem steadyProf_ne_nil (p : SteadyPars) (dx z B : List (Fl ℝ)) (pts : List SteadyPt)
    (h : steadyProf p dx z B = .ok pts) : pts ≠ [] := by
  unfold steadyProf at h
  split at h
  · cases h; simp
  · rename_i dx dxs z z1 zs B Bs
    cases hr : steadyProf p dxs (z1 :: zs) Bs with
    | error e => rw [hr] at h; cases h
    | ok rest =>
      rw [hr] at h
      cases rest with
      | nil => cases h
      | cons d ds =>
        simp only [bind, Except.bind] at h
        cases hd : steadyDepth p dx z B z1 d.dep d.en d.sf with
        | error e => rw [hd] at h; cases h
        | ok dep => rw [hd] at h; cases h; simp
  · cases h

/-- One step of the array sweep matches one unfolding of the recursion. -/
theorem steadyStep_spec (p : SteadyPars) (dx z B : List (Fl ℝ)) (N m : ℕ) (hz : z.length = N) (hB : B.length = N)
    (hdx : dx.length = N - 1) (hm : m + 1 < N) (s : SteadyArr) (pts : List SteadyPt) (hs : Holds N (m+1) s pts)
    (hp : steadyProf p (dx.drop (m+1)) (z.drop (m+1)) (B.drop (m+1)) = .ok pts) :
    match steadyProf p (dx.drop m) (z.drop m) (B.drop m) with
    | .ok pts' => ∃ s', steadyStep p dx z B s m = .ok s' ∧ Holds N m s' pts'
    | .error e => steadyStep p dx z B s m = .error e := by
  have hzc : z.drop m = z[m] :: z[m+1] :: z.drop (m+2) := by
    rw [List.drop_eq_getElem_cons (by omega), List.drop_eq_getElem_cons (by omega)]
  have hzc1 : z.drop (m+1) = z[m+1] :: z.drop (m+2) := List.drop_eq_getElem_cons (by omega)
  have hBc : B.drop m = B[m] :: B.drop (m+1) := List.drop_eq_getElem_cons (by omega)
  have hdc : dx.drop m = dx[m] :: dx.drop (m+1) := List.drop_eq_getElem_cons (by omega)
  obtain ⟨l1, l2, l3, l4, d1, d2, d3, d4⟩ := hs
  obtain ⟨d, ds, rfl⟩ : ∃ d ds, pts = d :: ds := by
    cases pts with
    | nil => exact absurd rfl (steadyProf_ne_nil p _ _ _ _ hp)
    | cons d ds => exact ⟨d, ds, rfl⟩
  have hprof : steadyProf p (dx.drop m) (z.drop m) (B.drop m) =
      (steadyDepth p dx[m] z[m] B[m] z[m+1] d.dep d.en d.sf).bind
        (fun dep => .ok (mkPt p z[m] B[m] dep :: d :: ds)) := by
    rw [hzc, hBc, hdc, steadyProf, ← hzc1, hp]
    rfl
  have hstep : steadyStep p dx z B s m =
      (steadyDepth p dx[m] z[m] B[m] z[m+1] d.dep d.en d.sf).bind (fun dep => .ok
        { dep := s.dep.set m dep, vel := s.vel.set m (steadyVel p B[m] dep),
          en := s.en.set m (steadyEnergy p z[m] dep (steadyVel p B[m] dep)),
          sf := s.sf.set m (steadySf p dep (steadyVel p B[m] dep)) }) := by
    unfold steadyStep
    rw [ixGet_of_drop dx m _ _ hdc, ixGet_of_drop z m _ _ hzc, ixGet_of_drop B m _ _ hBc,
      ixGet_of_drop z (m+1) _ _ hzc1, ixGet_of_drop s.dep (m+1) _ _ d1, ixGet_of_drop s.en (m+1) _ _ d3,
      ixGet_of_drop s.sf (m+1) _ _ d4]
    rfl
  rw [hprof, hstep]
  cases steadyDepth p dx[m] z[m] B[m] z[m+1] d.dep d.en d.sf with
  | error e => rfl
  | ok dep =>
    refine ⟨_, rfl, ?_⟩
    refine ⟨by simpa using l1, by simpa using l2, by simpa using l3, by simpa using l4, ?_, ?_, ?_, ?_⟩
    · rw [drop_set_self _ _ _ (by omega), d1]; rfl
    · rw [drop_set_self _ _ _ (by omega), d2]; rfl
    · rw [drop_set_self _ _ _ (by omega), d3]; rfl
    · rw [drop_set_self _ _ _ (by omega), d4]; rfl

theorem steadyLoop_spec (p : SteadyPars) (dx z B : List (Fl ℝ)) (N : ℕ) (hz : z.length = N) (hB : B.length = N)
    (hdx : dx.length = N - 1) (m : ℕ) (hm : m < N) (s : SteadyArr) (pts : List SteadyPt) (hs : Holds N m s pts)
    (hp : steadyProf p (dx.drop m) (z.drop m) (B.drop m) = .ok pts) :
    match steadyProf p dx z B with
    | .ok pts' => ∃ s', (List.range m).reverse.foldlM (steadyStep p dx z B) s = .ok s' ∧ Holds N 0 s' pts'
    | .error e => (List.range m).reverse.foldlM (steadyStep p dx z B) s = .error e := by
  induction m generalizing s pts with
  | zero =>
    simp only [List.drop_zero] at hp
    rw [hp]
    exact ⟨s, rfl, hs⟩
  | succ m ih =>
    have h1 := steadyStep_spec p dx z B N m hz hB hdx hm s pts hs hp
    rw [List.range_succ, List.reverse_append, List.reverse_singleton, List.singleton_append, List.foldlM_cons]
    cases h2 : steadyProf p (dx.drop m) (z.drop m) (B.drop m) with
    | ok pts' =>
      rw [h2] at h1
      obtain ⟨s', e, hs'⟩ := h1
      have := ih (by omega) s' pts' hs' h2
      rw [e]
      exact this
    | error e =>
      rw [h2] at h1
      simp only at h1
      rw [h1]
      -- the whole recursion fails with the same error
      have herr : ∀ k, k ≤ m → steadyProf p (dx.drop (m-k)) (z.drop (m-k)) (B.drop (m-k)) = .error e := by
        intro k
        induction k with
        | zero => intro _; simpa using h2
        | succ k ihk =>
          intro hk
          have ihk' := ihk (by omega)
          have e1 : m - (k+1) + 1 = m - k := by omega
          have hzc : z.drop (m-(k+1)) = z[m-(k+1)] :: z[m-k] :: z.drop (m-k+1) := by
            rw [List.drop_eq_getElem_cons (by omega), e1, List.drop_eq_getElem_cons (by omega)]
          have hzc1 : z.drop (m-k) = z[m-k] :: z.drop (m-k+1) := List.drop_eq_getElem_cons (by omega)
          have hBc : B.drop (m-(k+1)) = B[m-(k+1)] :: B.drop (m-k) := by
            rw [List.drop_eq_getElem_cons (by omega), e1]
          have hdc : dx.drop (m-(k+1)) = dx[m-(k+1)] :: dx.drop (m-k) := by
            rw [List.drop_eq_getElem_cons (by omega), e1]
          rw [hzc, hBc, hdc, steadyProf, ← hzc1, ihk']
          rfl
      have := herr m le_rfl
      simp only [Nat.sub_self, List.drop_zero] at this
      rw [this]
      rfl

/-- The array program computes the recursion. -/
theorem solveSteady_eq (p : SteadyPars) (dx z B : List (Fl ℝ)) (hN : z ≠ []) (hB : B.length = z.length)
    (hdx : dx.length = z.length - 1) :
    solveSteady p dx z B = (steadyProf p dx z B).map (fun pts => (pts.map (·.dep), pts.map (·.vel))) := by
  have hpos : 0 < z.length := List.length_pos_iff.mpr hN
  set N := z.length with hNdef
  have hzc : z.drop (N-1) = [z[N-1]] := by
    rw [List.drop_eq_getElem_cons (by omega), List.drop_of_length_le (by omega)]
  have hBc : B.drop (N-1) = [B[N-1]] := by
    rw [List.drop_eq_getElem_cons (by omega), List.drop_of_length_le (by omega)]
  have hgz : pyGet z (-1) = .ok z[N-1] := by
    unfold pyGet
    rw [if_neg (by omega), if_pos (by omega)]
    have : ((z.length : Int) + -1).toNat = N - 1 := by omega
    rw [this, ixGet, List.getElem?_eq_getElem]
  have hgB : pyGet B (-1) = .ok B[N-1] := by
    unfold pyGet
    rw [if_neg (by omega), if_pos (by omega)]
    have : ((B.length : Int) + -1).toNat = N - 1 := by omega
    rw [this, ixGet, List.getElem?_eq_getElem]
  have hp : steadyProf p (dx.drop (N-1)) (z.drop (N-1)) (B.drop (N-1)) =
      .ok [mkPt p z[N-1] B[N-1] (npmax (fin p.DsWL - z[N-1]) (critDep p B[N-1]))] := by
    rw [hzc, hBc]
    cases dx.drop (N-1) <;> rfl
  have hrep : ∀ a : Fl ℝ, ((List.replicate N (fin 0 : Fl ℝ)).set (N-1) a).drop (N-1) = [a] := by
    intro a
    rw [drop_set_self _ _ _ (by simp; omega)]
    simp; omega
  have hs := steadyLoop_spec p dx z B N rfl hB hdx (N-1) (by omega)
    { dep := (List.replicate N (fin 0)).set (N-1) (npmax (fin p.DsWL - z[N-1]) (critDep p B[N-1])),
      vel := (List.replicate N (fin 0)).set (N-1) (steadyVel p B[N-1] (npmax (fin p.DsWL - z[N-1]) (critDep p B[N-1]))),
      en := (List.replicate N (fin 0)).set (N-1) (steadyEnergy p z[N-1] (npmax (fin p.DsWL - z[N-1]) (critDep p B[N-1]))
        (steadyVel p B[N-1] (npmax (fin p.DsWL - z[N-1]) (critDep p B[N-1])))),
      sf := (List.replicate N (fin 0)).set (N-1) (steadySf p (npmax (fin p.DsWL - z[N-1]) (critDep p B[N-1]))
        (steadyVel p B[N-1] (npmax (fin p.DsWL - z[N-1]) (critDep p B[N-1])))) }
    _ (by
      refine ⟨by simp, by simp, by simp, by simp, ?_, ?_, ?_, ?_⟩ <;> simp only [hrep] <;> rfl) hp
  unfold solveSteady
  rw [hgz, hgB]
  simp only [bind, Except.bind]
  cases h2 : steadyProf p dx z B with
  | error e =>
    rw [h2] at hs
    simp only at hs
    rw [hs]; rfl
  | ok pts =>
    rw [h2] at hs
    obtain ⟨s', e, _, _, _, _, d1, d2, _, _⟩ := hs
    rw [e]
    simp only [List.drop_zero] at d1 d2
    simp only [pure, Except.pure, Except.map, d1, d2]

end Verif.Model

namespace Verif.Model
open Verif Fl Real

theorem npPow_pinf_neg {b : ℝ} (hb : b < 0) : npPow pinf b = fin 0 := by
  simp [npPow, hb.ne, hb.not_gt]
theorem npPow_ninf_neg {b : ℝ} (hb : b < 0) : npPow ninf b = fin 0 := by
  simp [npPow, hb.ne, hb.not_gt]

/-- The real critical depth. -/
noncomputable def critR (p : SteadyPars) (B : ℝ) : ℝ := (p.Q * p.Q / (B * B * gravSteady)) ^ (1/3 : ℝ)

theorem grav_pos : 0 < gravSteady := by norm_num [gravSteady]

theorem critDep_fin (p : SteadyPars) {B : ℝ} (hB : 0 < B) : critDep p (fin B) = fin (critR p B) := by
  have : B * B * gravSteady ≠ 0 := by have := grav_pos; positivity
  unfold critDep critR
  simp only [mul_fin, div_fin _ _ this]
  rw [npPow_nonneg (by have := grav_pos; have := mul_self_nonneg p.Q; positivity) (by norm_num)]

theorem critR_nonneg (p : SteadyPars) (B : ℝ) : 0 ≤ critR p B := by
  unfold critR
  have := grav_pos
  have h1 := mul_self_nonneg p.Q
  have h2 := mul_self_nonneg B
  positivity

theorem critR_pos (p : SteadyPars) {B : ℝ} (hB : 0 < B) (hQ : p.Q ≠ 0) : 0 < critR p B := by
  unfold critR
  have := grav_pos
  have := mul_self_pos.mpr hQ
  positivity

theorem critR_cube (p : SteadyPars) {B : ℝ} (hB : 0 < B) : p.Q ^ 2 = gravSteady * B ^ 2 * critR p B ^ 3 := by
  have hg := grav_pos
  have h0 : 0 ≤ p.Q * p.Q / (B * B * gravSteady) := by
    have := mul_self_nonneg p.Q; positivity
  have : critR p B ^ 3 = p.Q * p.Q / (B * B * gravSteady) := by
    unfold critR
    rw [← Real.rpow_natCast, ← Real.rpow_mul h0]
    norm_num
  rw [this]
  field_simp

theorem critR_le_iff (p : SteadyPars) {B h : ℝ} (hB : 0 < B) (hh : critR p B ≤ h) :
    p.Q ^ 2 ≤ gravSteady * B ^ 2 * h ^ 3 := by
  rw [critR_cube p hB]
  have := grav_pos
  have := critR_nonneg p B
  gcongr

/-- The residual as a real function of a positive depth. -/
noncomputable def errR (A Bc C h : ℝ) : ℝ := h + A * h ^ (-2 : ℝ) - Bc * h ^ (-10/3 : ℝ) + C

theorem depErr_pos (A Bc C : ℝ) {h : ℝ} (hh : 0 < h) : depErr (fin A) (fin Bc) (fin C) (fin h) = fin (errR A Bc C h) := by
  unfold depErr errR
  rw [npPow_pos hh, npPow_pos hh]; simp

theorem depErr_nan (A Bc C : Fl ℝ) : depErr A Bc C nan = nan := by simp [depErr]

theorem depErr_pinf (A Bc C : ℝ) : depErr (fin A) (fin Bc) (fin C) pinf = pinf := by
  unfold depErr
  rw [npPow_pinf_neg (by norm_num), npPow_pinf_neg (by norm_num)]
  simp only [mul_fin]; rfl

theorem depErr_ninf (A Bc C : ℝ) : depErr (fin A) (fin Bc) (fin C) ninf = ninf := by
  unfold depErr
  rw [npPow_ninf_neg (by norm_num), npPow_ninf_neg (by norm_num)]
  simp only [mul_fin]; rfl

theorem steadyNewton_zero (A Bc C : Fl ℝ) (Tol : ℝ) (dep err : Fl ℝ) :
    steadyNewton A Bc C Tol 0 dep err = if fin Tol <? err.abs then .error .assertion else .ok dep := by
  rw [steadyNewton.eq_def]

theorem steadyNewton_succ (A Bc C : Fl ℝ) (Tol : ℝ) (fuel : ℕ) (dep err : Fl ℝ) :
    steadyNewton A Bc C Tol (fuel+1) dep err = if fin Tol <? err.abs then
      steadyNewton A Bc C Tol fuel (dep - err / depGrad A Bc dep) (depErr A Bc C (dep - err / depGrad A Bc dep))
    else .ok dep := by
  rw [steadyNewton.eq_def]

/-- What any exit from the Newton loop guarantees. -/
theorem steadyNewton_exit (A Bc C Tol : ℝ) (fuel : ℕ) (dep d : Fl ℝ)
    (h : steadyNewton (fin A) (fin Bc) (fin C) Tol fuel dep (depErr (fin A) (fin Bc) (fin C) dep) = .ok d) :
    d = nan ∨ ∃ x, d = fin x ∧ (x ≤ 0 ∨ |errR A Bc C x| ≤ Tol) := by
  induction fuel generalizing dep with
  | zero =>
    rw [steadyNewton_zero] at h
    split at h
    · cases h
    · rename_i hx
      cases h
      cases d with
      | nan => exact Or.inl rfl
      | pinf => rw [depErr_pinf] at hx; exact absurd rfl hx
      | ninf => rw [depErr_ninf] at hx; exact absurd rfl hx
      | fin x =>
        refine Or.inr ⟨x, rfl, ?_⟩
        rcases le_or_gt x 0 with h0 | h0
        · exact Or.inl h0
        · right
          rw [depErr_pos _ _ _ h0] at hx
          simpa using hx
  | succ fuel ih =>
    rw [steadyNewton_succ] at h
    split at h
    · exact ih _ h
    · rename_i hx
      cases h
      cases d with
      | nan => exact Or.inl rfl
      | pinf => rw [depErr_pinf] at hx; exact absurd rfl hx
      | ninf => rw [depErr_ninf] at hx; exact absurd rfl hx
      | fin x =>
        refine Or.inr ⟨x, rfl, ?_⟩
        rcases le_or_gt x 0 with h0 | h0
        · exact Or.inl h0
        · right
          rw [depErr_pos _ _ _ h0] at hx
          simpa using hx

theorem steadyNewton_nan (A Bc C : Fl ℝ) (Tol : ℝ) (fuel : ℕ) : steadyNewton A Bc C Tol fuel nan nan = .ok nan := by
  rw [steadyNewton.eq_def]; simp

/-- Coefficients as reals. -/
noncomputable def Ar (p : SteadyPars) (B : ℝ) : ℝ := p.Beta * (p.Q * p.Q / (2 * gravSteady * (B * B)))
noncomputable def Br (p : SteadyPars) (dx B : ℝ) : ℝ := dx * (p.Q * p.Q) * p.n ^ 2 / (2 * (B * B))

theorem steadyDepth_fin (p : SteadyPars) (dx z B z1 h1 e1 s1 : ℝ) (hB : 0 < B) (d : Fl ℝ)
    (h : steadyDepth p (fin dx) (fin z) (fin B) (fin z1) (fin h1) (fin e1) (fin s1) = .ok d) :
    d = nan ∨ d = fin (critR p B) ∨
      ∃ x, d = fin x ∧ 0 < x ∧ critR p B ≤ x ∧ |errR (Ar p B) (Br p dx B) (z - s1 * dx / 2 - e1) x| ≤ p.Tol := by
  have hg := grav_pos
  unfold steadyDepth at h
  have hA : fin p.Beta * (fin p.Q * fin p.Q / (fin 2 * fin gravSteady * (fin B * fin B))) = fin (Ar p B) := by
    simp only [mul_fin]
    rw [div_fin _ _ (by positivity)]; rfl
  have hBc : fin dx * (fin p.Q * fin p.Q) * fin (p.n ^ 2) / (fin 2 * (fin B * fin B)) = fin (Br p dx B) := by
    simp only [mul_fin]
    rw [div_fin _ _ (by positivity)]; rfl
  have hC : (fin z - fin s1 * fin dx / fin 2 - fin e1 : Fl ℝ) = fin (z - s1 * dx / 2 - e1) := by
    simp only [mul_fin]
    rw [div_fin _ _ (by norm_num)]; simp
  simp only [hA, hBc, hC] at h
  cases hn : steadyNewton (fin (Ar p B)) (fin (Br p dx B)) (fin (z - s1 * dx / 2 - e1)) p.Tol (p.MaxIt - 1)
      (fin h1 + fin z1 - fin z + fin s1 * fin dx)
      (depErr (fin (Ar p B)) (fin (Br p dx B)) (fin (z - s1 * dx / 2 - e1)) (fin h1 + fin z1 - fin z + fin s1 * fin dx)) with
  | error e => rw [hn] at h; cases h
  | ok y =>
    rw [hn] at h
    simp only [bind, Except.bind, pure, Except.pure, Except.ok.injEq, critDep_fin p hB] at h
    rcases steadyNewton_exit _ _ _ _ _ _ _ hn with rfl | ⟨x, rfl, hx⟩
    · left; rw [← h]; simp
    · right
      simp only [blt_fin, decide_eq_true_eq] at h
      split at h
      · left; exact h.symm
      · rename_i hc
        push Not at hc
        rcases hx with hx | hx
        · left
          have := critR_nonneg p B
          rw [← h]; congr 1; linarith
        · rcases hc.eq_or_lt with he | hl
          · left; rw [← h, he]
          · right
            exact ⟨x, h.symm, lt_of_le_of_lt (critR_nonneg p B) hl, hc, hx⟩

theorem steadyDepth_nan (p : SteadyPars) (dx z B z1 dep1 en1 : Fl ℝ) : 
    steadyDepth p dx z B z1 dep1 en1 nan = .ok nan := by
  unfold steadyDepth
  simp only [nan_mul, add_nan, depErr_nan, steadyNewton_nan]
  simp [bind, Except.bind, pure, Except.pure]

/-- Velocity, energy and friction at a positive depth. -/
theorem mkPt_pos (p : SteadyPars) (z : ℝ) {B h : ℝ} (hB : 0 < B) (hh : 0 < h) :
    (mkPt p (fin z) (fin B) (fin h)).vel = fin (p.Q / (B * h)) ∧
    (mkPt p (fin z) (fin B) (fin h)).en = fin (z + h + p.Beta * (p.Q / (B * h) * (p.Q / (B * h))) / (2 * gravSteady)) ∧
    (mkPt p (fin z) (fin B) (fin h)).sf = fin (p.Q / (B * h) * (p.Q / (B * h)) * p.n ^ 2 / h ^ (4/3 : ℝ)) := by
  have hg := grav_pos
  have e : steadyVel p (fin B) (fin h) = fin (p.Q / (B * h)) := by
    unfold steadyVel; simp only [mul_fin]; rw [div_fin _ _ (by positivity)]
  refine ⟨e, ?_, ?_⟩
  · show steadyEnergy p _ _ _ = _
    rw [e]; unfold steadyEnergy; simp only [mul_fin]; rw [div_fin _ _ (by positivity)]; simp
  · show steadySf p _ _ = _
    rw [e]; unfold steadySf; rw [npPow_pos hh]; simp only [mul_fin]
    rw [div_fin _ _ (by positivity)]

/-- With no number (or a dry section) downstream, the friction slope is nan. -/
theorem mkPt_sf_nan (p : SteadyPars) (z : ℝ) {B : ℝ} (_hB : 0 < B) (d : Fl ℝ)
    (h : d = nan ∨ (p.Q = 0 ∧ d = fin 0)) : (mkPt p (fin z) (fin B) d).sf = nan := by
  show steadySf p _ _ = _
  rcases h with rfl | ⟨hQ, rfl⟩
  · simp [steadySf, steadyVel]
  · simp [steadySf, steadyVel, hQ, div_fin_def, infOfSign]

/-- State of one section of the profile. -/
def GoodPt (p : SteadyPars) (z B : ℝ) (pt : SteadyPt) : Prop :=
  pt = mkPt p (fin z) (fin B) pt.dep ∧ (pt.dep = nan ∨ ∃ h, pt.dep = fin h ∧ critR p B ≤ h)

theorem GoodPt.sf_cases {p : SteadyPars} {z B : ℝ} {pt : SteadyPt} (hB : 0 < B) (g : GoodPt p z B pt) :
    pt.sf = nan ∨ ∃ h, pt.dep = fin h ∧ 0 < h := by
  obtain ⟨e, h | ⟨h, hd, hc⟩⟩ := g
  · left; rw [e]; exact mkPt_sf_nan p z hB _ (Or.inl h)
  · have h0 := (critR_nonneg p B).trans hc
    rcases h0.eq_or_lt with hz | hz
    · left
      rw [e]
      apply mkPt_sf_nan p z hB
      right
      refine ⟨?_, by rw [hd, ← hz]⟩
      by_contra hQ
      have := critR_pos p hB hQ
      linarith
    · exact Or.inr ⟨h, hd, hz⟩

theorem steadyProf_good (p : SteadyPars) (dx z B : List ℝ) (hB : ∀ b ∈ B, 0 < b) (pts : List SteadyPt)
    (h : steadyProf p (dx.map fin) (z.map fin) (B.map fin) = .ok pts) :
    pts.length = z.length ∧ B.length = z.length ∧
    (∀ (i : ℕ) pt zi Bi, pts[i]? = some pt → z[i]? = some zi → B[i]? = some Bi → GoodPt p zi Bi pt) ∧
    (∀ zN BN, z.getLast? = some zN → B.getLast? = some BN →
      pts.getLast? = some (mkPt p (fin zN) (fin BN) (fin (max (p.DsWL - zN) (critR p BN))))) ∧
    (∀ (i : ℕ) pt pt1 zi Bi z1 B1 dxi, pts[i]? = some pt → pts[i+1]? = some pt1 → z[i]? = some zi → B[i]? = some Bi →
      z[i+1]? = some z1 → B[i+1]? = some B1 → dx[i]? = some dxi →
      pt.dep = nan ∨ ∃ h1 h0, pt1.dep = fin h1 ∧ 0 < h1 ∧ pt.dep = fin h0 ∧
        (h0 = critR p Bi ∨ ∃ e1 s1, pt1.en = fin e1 ∧ pt1.sf = fin s1 ∧ 0 < h0 ∧
          |errR (Ar p Bi) (Br p dxi Bi) (zi - s1 * dxi / 2 - e1) h0| ≤ p.Tol)) := by
  induction z generalizing dx B pts with
  | nil => cases dx <;> cases B <;> cases h
  | cons z zs ih =>
    cases zs with
    | nil =>
      cases B with
      | nil => cases dx <;> cases h
      | cons b bs =>
        cases bs with
        | cons b' bs => cases dx <;> cases h
        | nil =>
          have hb : 0 < b := hB b (by simp)
          have hpts : pts = [mkPt p (fin z) (fin b) (fin (max (p.DsWL - z) (critR p b)))] := by
            have e : npmax (fin p.DsWL - fin z) (critDep p (fin b)) = fin (max (p.DsWL - z) (critR p b)) := by
              rw [critDep_fin p hb]; simp
            have h' : .ok [mkPt p (fin z) (fin b) (npmax (fin p.DsWL - fin z) (critDep p (fin b)))] = Except.ok (ε := PyErr) pts := by
              cases dx <;> exact h
            rw [e] at h'
            cases h'; rfl
          subst hpts
          refine ⟨rfl, rfl, ?_, ?_, ?_⟩
          · intro i pt zi Bi h1 h2 h3
            cases i with
            | succ i => simp at h1
            | zero =>
              simp only [List.getElem?_cons_zero, Option.some.injEq] at h1 h2 h3
              subst h1 h2 h3
              exact ⟨rfl, Or.inr ⟨_, rfl, le_max_right _ _⟩⟩
          · intro zN BN h2 h3
            simp only [List.getLast?_singleton, Option.some.injEq] at h2 h3
            subst h2 h3; rfl
          · intro i pt pt1 zi Bi z1 B1 dxi h1 h2
            simp at h2
    | cons z1 zs =>
      cases dx with
      | nil => cases B <;> cases h
      | cons dx0 dxs =>
        cases B with
        | nil => cases h
        | cons b bs =>
          simp only [List.map_cons, steadyProf] at h
          cases hr : steadyProf p (dxs.map fin) (fin z1 :: zs.map fin) (bs.map fin) with
          | error e => rw [hr] at h; cases h
          | ok rest =>
            rw [hr] at h
            cases rest with
            | nil => cases h
            | cons d ds =>
              simp only [bind, Except.bind] at h
              cases hd : steadyDepth p (fin dx0) (fin z) (fin b) (fin z1) d.dep d.en d.sf with
              | error e => rw [hd] at h; cases h
              | ok dep =>
                rw [hd] at h
                simp only [pure, Except.pure, Except.ok.injEq] at h
                subst h
                obtain ⟨l1, l2, g1, g2, g3⟩ := ih dxs bs (fun x hx => hB x (by simp [hx])) (d :: ds) hr
                have hb : 0 < b := hB b (by simp)
                cases bs with
                | nil => simp at l2
                | cons b1 bs =>
                  have hb1 : 0 < b1 := hB b1 (by simp)
                  have gd : GoodPt p z1 b1 d := g1 0 d z1 b1 rfl rfl rfl
                  have key : dep = nan ∨ ∃ h1 h0, d.dep = fin h1 ∧ 0 < h1 ∧ dep = fin h0 ∧ critR p b ≤ h0 ∧
                      (h0 = critR p b ∨ ∃ e1 s1, d.en = fin e1 ∧ d.sf = fin s1 ∧ 0 < h0 ∧
                        |errR (Ar p b) (Br p dx0 b) (z - s1 * dx0 / 2 - e1) h0| ≤ p.Tol) := by
                    rcases gd.sf_cases hb1 with hn | ⟨h1, hd1, h1pos⟩
                    · rw [hn, steadyDepth_nan] at hd
                      cases hd; left; rfl
                    · have ed := gd.1
                      rw [hd1] at ed
                      obtain ⟨_, een, esf⟩ := mkPt_pos p z1 hb1 h1pos
                      have hen := congrArg SteadyPt.en ed
                      have hsf := congrArg SteadyPt.sf ed
                      rw [een] at hen
                      rw [esf] at hsf
                      rw [hd1, hen, hsf] at hd
                      rcases steadyDepth_fin p _ _ _ _ _ _ _ hb _ hd with h | h | ⟨x, h, hx, hc, he⟩
                      · left; exact h
                      · right
                        exact ⟨h1, _, hd1, h1pos, h, le_rfl, Or.inl rfl⟩
                      · right
                        exact ⟨h1, x, hd1, h1pos, h, hc, Or.inr ⟨_, _, hen, hsf, hx, he⟩⟩
                  refine ⟨by simpa using l1, by simpa using l2, ?_, ?_, ?_⟩
                  · intro i pt zi Bi h1 h2 h3
                    cases i with
                    | zero =>
                      simp only [List.getElem?_cons_zero, Option.some.injEq] at h1 h2 h3
                      subst h1 h2 h3
                      refine ⟨rfl, ?_⟩
                      rcases key with h | ⟨_, h0, _, _, h, hc, _⟩
                      · exact Or.inl h
                      · exact Or.inr ⟨h0, h, hc⟩
                    | succ i =>
                      simp only [List.getElem?_cons_succ] at h1 h2 h3
                      exact g1 i pt zi Bi h1 h2 h3
                  · intro zN BN h2 h3
                    rw [List.getLast?_cons_cons] at h2 h3 ⊢
                    exact g2 zN BN h2 h3
                  · intro i pt pt1 zi Bi zi1 Bi1 dxi h1 h2 h3 h4 h5 h6 h7
                    cases i with
                    | zero =>
                      simp only [List.getElem?_cons_zero, List.getElem?_cons_succ, Option.some.injEq, zero_add] at h1 h2 h3 h4 h5 h6 h7
                      subst h1 h2 h3 h4 h7
                      rcases key with h | ⟨h1, h0, a, b, c, _, d⟩
                      · exact Or.inl h
                      · exact Or.inr ⟨h1, h0, a, b, c, d⟩
                    | succ i =>
                      simp only [List.getElem?_cons_succ] at h1 h2 h3 h4 h5 h6 h7
                      exact g3 i pt pt1 zi Bi zi1 Bi1 dxi h1 h2 h3 h4 h5 h6 h7

end Verif.Model
