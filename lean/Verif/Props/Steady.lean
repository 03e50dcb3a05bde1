import Verif.Lemmas.Steady
import Verif.Spec.Steady

set_option autoImplicit false

set_option linter.unusedSectionVars false

/-! # Properties C15-C18: steady river hydraulics -/

namespace Verif.Props
open Verif Verif.Model Verif.Spec Fl Real

/-- The modelled function run on finite channels. -/
noncomputable abbrev steady (p : SteadyPars) (dx z B : List ℝ) : Except PyErr (List (Fl ℝ) × List (Fl ℝ)) :=
  solveSteady p (dx.map fin) (z.map fin) (B.map fin)

/-- A channel: at least one section, one width per section, one spacing between neighbours,
positive widths. -/
structure IsChannel (dx z B : List ℝ) : Prop where
  ne : z ≠ []
  hB : B.length = z.length
  hdx : dx.length = z.length - 1
  pos : ∀ b ∈ B, 0 < b

theorem steady_prof {p : SteadyPars} {dx z B : List ℝ} (c : IsChannel dx z B) {hs vs : List (Fl ℝ)}
    (h : steady p dx z B = .ok (hs, vs)) :
    ∃ pts, steadyProf p (dx.map fin) (z.map fin) (B.map fin) = .ok pts ∧ hs = pts.map (·.dep) ∧ vs = pts.map (·.vel) := by
  rw [steady, solveSteady_eq p _ _ _ (by simpa using c.ne) (by simpa using c.hB) (by simpa using c.hdx)] at h
  cases hp : steadyProf p (dx.map fin) (z.map fin) (B.map fin) with
  | error e => rw [hp] at h; cases h
  | ok pts =>
    rw [hp] at h
    simp only [Except.map, Except.ok.injEq, Prod.mk.injEq] at h
    exact ⟨pts, rfl, h.1.symm, h.2.symm⟩

/-- C15: one depth and one velocity per section, and where they are numbers, velocity times
width times depth is the inflow. -/
theorem C15_continuity (p : SteadyPars) (dx z B : List ℝ) (c : IsChannel dx z B) (hs vs : List (Fl ℝ))
    (h : steady p dx z B = .ok (hs, vs)) :
    hs.length = z.length ∧ vs.length = z.length ∧
      ∀ (i : ℕ) b d v, B[i]? = some b → hs[i]? = some (fin d) → vs[i]? = some (fin v) → v * b * d = p.Q := by
  obtain ⟨pts, hp, rfl, rfl⟩ := steady_prof c h
  obtain ⟨l1, l2, g1, -, -⟩ := steadyProf_good p dx z B c.pos pts hp
  refine ⟨by simpa using l1, by simpa using l1, ?_⟩
  intro i b d v hb hd hv
  rw [List.getElem?_map, Option.map_eq_some_iff] at hd hv
  obtain ⟨pt, hpt, ed⟩ := hd
  obtain ⟨pt', hpt', ev⟩ := hv
  rw [hpt] at hpt'
  cases hpt'
  have hbp : 0 < b := c.pos b (List.mem_of_getElem? hb)
  have hi : i < z.length := by
    have := (List.getElem?_eq_some_iff.mp hb).1; omega
  have g := g1 i pt z[i] b hpt (List.getElem?_eq_getElem hi) hb
  obtain ⟨e, hn | ⟨h', hd', hc⟩⟩ := g
  · rw [hn] at ed; cases ed
  rw [ed] at hd'; cases hd'
  rw [ed] at e
  have hvel := congrArg SteadyPt.vel e
  rw [ev] at hvel
  rcases ((critR_nonneg p b).trans hc).eq_or_lt with h0 | h0
  · -- a dry section has no numeric velocity
    exfalso
    have hQ : p.Q = 0 := by
      by_contra hQ
      have := critR_pos p hbp hQ
      linarith
    rw [← h0] at hvel
    simp [mkPt, steadyVel, hQ, div_fin_def, infOfSign] at hvel
  · rw [(mkPt_pos p z[i] hbp h0).1] at hvel
    cases hvel
    field_simp

/-- C16, what holds: for positive inflow every returned depth is a number at which the flow
is not supercritical (Froude number at most one), with a numeric velocity `v`, `v² ≤ g h`;
or it is nan.  Missing: excluding nan, which is false (`C16_refuted_nan`). -/
theorem C16_partial (p : SteadyPars) (hQ : 0 < p.Q) (dx z B : List ℝ) (c : IsChannel dx z B) (hs vs : List (Fl ℝ))
    (h : steady p dx z B = .ok (hs, vs)) (i : ℕ) (b : ℝ) (hb : B[i]? = some b) :
    hs[i]? = some nan ∨ ∃ d v, hs[i]? = some (fin d) ∧ vs[i]? = some (fin v) ∧ 0 < d ∧
      NotSupercritical 9.81 p.Q b d ∧ v ^ 2 ≤ 9.81 * d := by
  obtain ⟨pts, hp, rfl, rfl⟩ := steady_prof c h
  obtain ⟨l1, l2, g1, -, -⟩ := steadyProf_good p dx z B c.pos pts hp
  have hbp : 0 < b := c.pos b (List.mem_of_getElem? hb)
  have hi : i < z.length := by
    have := (List.getElem?_eq_some_iff.mp hb).1; omega
  have hpt : pts[i]? = some pts[i] := List.getElem?_eq_getElem (by omega)
  have g := g1 i _ z[i] b hpt (List.getElem?_eq_getElem hi) hb
  simp only [List.getElem?_map, hpt, Option.map_some, Option.some.injEq]
  obtain ⟨e, hn | ⟨d, hd, hc⟩⟩ := g
  · left; exact hn
  right
  have h0 : 0 < d := lt_of_lt_of_le (critR_pos p hbp hQ.ne') hc
  rw [hd] at e
  have hvel := congrArg SteadyPt.vel e
  rw [(mkPt_pos p z[i] hbp h0).1] at hvel
  have hcr : p.Q ^ 2 ≤ 9.81 * b ^ 2 * d ^ 3 := by
    have := critR_le_iff p hbp hc
    simpa [gravSteady] using this
  refine ⟨d, _, hd, hvel, h0, hcr, ?_⟩
  rw [div_pow, div_le_iff₀ (by positivity)]
  calc p.Q ^ 2 ≤ 9.81 * b ^ 2 * d ^ 3 := hcr
    _ = 9.81 * d * (b * d) ^ 2 := by ring

/-- A frictionless two-section channel whose starting guess upstream is exactly the critical
depth, where the Newton gradient vanishes. -/
noncomputable def nanPars : SteadyPars :=
  { n := 0, Q := 9.81 ^ 2, DsWL := 2 * 9.81, Beta := 1, Tol := 0.001, MaxIt := 20 }

theorem nan_run : steady nanPars [10] [9.81, 0] [1, 1] =
    .ok ([nan, fin (2 * 9.81)], [nan, fin (9.81 / 2)]) := by
  have hc : critR nanPars 1 = 9.81 := by
    have h1 : nanPars.Q * nanPars.Q / (1 * 1 * gravSteady) = (9.81 : ℝ) ^ (3 : ℝ) := by
      norm_num [nanPars, gravSteady]
    unfold critR
    rw [h1, ← Real.rpow_mul (by norm_num)]
    norm_num
  have c0 : critDep nanPars (fin 1) = fin 9.81 := by rw [critDep_fin _ one_pos, hc]
  have hg : gravSteady = 9.81 := rfl
  rw [steady, solveSteady_eq _ _ _ _ (by simp) (by simp) (by simp)]
  have hN : npmax (fin nanPars.DsWL - fin 0) (critDep nanPars (fin 1)) = fin (2 * 9.81) := by
    rw [c0]; simp only [sub_fin, npmax_fin]; norm_num [nanPars]
  have hb : steadyProf nanPars [] [fin 0] [fin 1] = .ok [mkPt nanPars (fin 0) (fin 1) (fin (2 * 9.81))] := by
    simp only [steadyProf, hN]
  obtain ⟨ev, ee, es⟩ := mkPt_pos nanPars 0 (B := 1) (h := 2 * 9.81) one_pos (by norm_num)
  have ev' : (mkPt nanPars (fin 0) (fin 1) (fin (2 * 9.81))).vel = fin (9.81 / 2) := by
    rw [ev]; norm_num [nanPars]
  have ee' : (mkPt nanPars (fin 0) (fin 1) (fin (2 * 9.81))).en = fin (17/8 * 9.81) := by
    rw [ee]; norm_num [nanPars, gravSteady]
  have es' : (mkPt nanPars (fin 0) (fin 1) (fin (2 * 9.81))).sf = fin 0 := by
    rw [es]; norm_num [nanPars]
  have hA : Ar nanPars 1 = 9.81 ^ 3 / 2 := by norm_num [Ar, nanPars, gravSteady]
  have hB : Br nanPars 10 1 = 0 := by norm_num [Br, nanPars]
  have hd : steadyDepth nanPars (fin 10) (fin 9.81) (fin 1) (fin 0) (fin (2 * 9.81)) (fin (17/8 * 9.81)) (fin 0) = .ok nan := by
    unfold steadyDepth
    have e1 : fin nanPars.Beta * (fin nanPars.Q * fin nanPars.Q / (fin 2 * fin gravSteady * (fin 1 * fin 1))) =
        fin (9.81 ^ 3 / 2 : ℝ) := by
      simp only [mul_fin]
      rw [div_fin _ _ (by norm_num [gravSteady])]
      norm_num [nanPars, gravSteady]
    have e2 : fin 10 * (fin nanPars.Q * fin nanPars.Q) * fin (nanPars.n ^ 2) / (fin 2 * (fin 1 * fin 1)) = fin (0 : ℝ) := by
      simp only [mul_fin]
      rw [div_fin _ _ (by norm_num)]
      norm_num [nanPars]
    have e3 : (fin 9.81 - fin 0 * fin 10 / fin 2 - fin (17/8 * 9.81) : Fl ℝ) = fin (-(9/8) * 9.81) := by
      simp only [mul_fin]
      rw [div_fin _ _ (by norm_num)]
      simp only [sub_fin]; norm_num
    have e4 : (fin (2 * 9.81) + fin 0 - fin 9.81 + fin 0 * fin 10 : Fl ℝ) = fin 9.81 := by
      simp only [mul_fin, add_fin, sub_fin]; norm_num
    simp only [e1, e2, e3, e4]
    have f1 : depErr (fin (9.81 ^ 3 / 2)) (fin 0) (fin (-(9/8) * 9.81)) (fin (9.81 : ℝ)) = fin (3/8 * 9.81) := by
      rw [depErr_pos _ _ _ (by norm_num)]
      unfold errR
      rw [Real.rpow_neg (by norm_num)]
      norm_num
    have f2 : depGrad (fin (9.81 ^ 3 / 2)) (fin 0) (fin (9.81 : ℝ)) = fin 0 := by
      unfold depGrad
      rw [npPow_pos (by norm_num), npPow_pos (by norm_num), Real.rpow_neg (by norm_num)]
      simp only [mul_fin, sub_fin, add_fin]
      norm_num
    have f3 : (fin 9.81 - fin (3/8 * 9.81) / fin 0 : Fl ℝ) = ninf := by
      rw [div_fin_def, if_pos rfl, infOfSign, if_neg (by norm_num), if_pos (by norm_num)]; rfl
    have f4 : depGrad (fin (9.81 ^ 3 / 2)) (fin 0) (ninf : Fl ℝ) = fin 1 := by
      unfold depGrad
      rw [npPow_ninf_neg (by norm_num), npPow_ninf_neg (by norm_num)]
      simp
    have f5 : ((ninf : Fl ℝ) - ninf / fin 1) = nan := by
      have : ((ninf : Fl ℝ) / fin 1) = ninf := by
        show (if (0:ℝ) ≤ 1 then ninf else pinf) = ninf
        rw [if_pos zero_le_one]
      rw [this]; rfl
    have hfuel : nanPars.MaxIt - 1 = 17 + 1 + 1 := rfl
    have hT : nanPars.Tol = 0.001 := rfl
    rw [f1, hfuel, steadyNewton_succ, hT, if_pos (by simp only [abs_fin, blt_fin, decide_eq_true_eq]; rw [abs_of_pos] <;> norm_num),
      f2, f3, steadyNewton_succ, depErr_ninf,
      if_pos (show (fin 0.001 <? (ninf : Fl ℝ).abs) = true from rfl), f4, f5, depErr_nan, steadyNewton_nan]
    simp [bind, Except.bind, pure, Except.pure]
  simp only [List.map_cons, List.map_nil, steadyProf]
  simp only [bind, Except.bind, pure, Except.pure, ee', es', hN]
  rw [show (mkPt nanPars (fin 0) (fin 1) (fin (2 * 9.81))).dep = fin (2 * 9.81) from rfl, hd]
  simp only [Except.map, List.map_cons, List.map_nil, ev']
  simp [mkPt, steadyVel]

/-- C16 as stated is false: with a zero Newton gradient the function returns, and the depth
it returns upstream is nan, not a number above critical depth. -/
theorem C16_refuted_nan : ∃ (p : SteadyPars) (dx z B : List ℝ) (hs vs : List (Fl ℝ)), 0 < p.Q ∧ IsChannel dx z B ∧
    steady p dx z B = .ok (hs, vs) ∧ hs[0]? = some nan :=
  ⟨nanPars, [10], [9.81, 0], [1, 1], _, _, by norm_num [nanPars], ⟨by simp, rfl, rfl, by simp⟩, nan_run, rfl⟩

/-- C17, what holds: at the downstream end the depth is the larger of the depth at sea level
and the (unique positive) critical depth; at every other section the depth is nan, or
the flow is exactly critical, or the depth and that of the next section downstream are
numbers and the energy balance between the two sections holds to the tolerance.
Missing: excluding nan. -/
theorem C17_partial (p : SteadyPars) (hQ : p.Q ≠ 0) (dx z B : List ℝ) (c : IsChannel dx z B) (hs vs : List (Fl ℝ))
    (h : steady p dx z B = .ok (hs, vs)) :
    (∀ zN bN, z.getLast? = some zN → B.getLast? = some bN → ∃ hc, 0 < hc ∧ Critical 9.81 p.Q bN hc ∧
      hs.getLast? = some (fin (max (p.DsWL - zN) hc))) ∧
    (∀ (i : ℕ) zi bi z1 dxi, z[i]? = some zi → B[i]? = some bi → z[i+1]? = some z1 → dx[i]? = some dxi →
      hs[i]? = some nan ∨ ∃ d0 d1 v0 v1, hs[i]? = some (fin d0) ∧ hs[i+1]? = some (fin d1) ∧
        vs[i]? = some (fin v0) ∧ vs[i+1]? = some (fin v1) ∧ 0 < d0 ∧ 0 < d1 ∧
        (Critical 9.81 p.Q bi d0 ∨
          |energyLevel 9.81 p.Beta zi d0 v0 - energyLevel 9.81 p.Beta z1 d1 v1
            - dxi / 2 * (frictionSlope p.n d0 v0 + frictionSlope p.n d1 v1)| ≤ p.Tol)) := by
  obtain ⟨pts, hp, rfl, rfl⟩ := steady_prof c h
  obtain ⟨l1, l2, g1, g2, g3⟩ := steadyProf_good p dx z B c.pos pts hp
  constructor
  · intro zN bN hz hb
    have hbp : 0 < bN := c.pos bN (List.mem_of_getLast? hb)
    refine ⟨critR p bN, critR_pos p hbp hQ, ?_, ?_⟩
    · have := critR_cube p hbp
      simpa [gravSteady, Critical] using this
    · rw [List.getLast?_map, g2 zN bN hz hb]; rfl
  · intro i zi bi z1 dxi hz hb hz1 hdx
    have hi1 := (List.getElem?_eq_some_iff.mp hz1).1
    have hB1 : B[i+1]? = some B[i+1] := List.getElem?_eq_getElem (by omega)
    have hpt : pts[i]? = some pts[i] := List.getElem?_eq_getElem (by omega)
    have hpt1 : pts[i+1]? = some pts[i+1] := List.getElem?_eq_getElem (by omega)
    have hbp : 0 < bi := c.pos bi (List.mem_of_getElem? hb)
    have hbp1 : 0 < B[i+1] := c.pos _ (List.getElem_mem _)
    have k := g3 i _ _ zi bi z1 _ dxi hpt hpt1 hz hb hz1 hB1 hdx
    have gp := g1 i _ zi bi hpt hz hb
    have gp1 := g1 (i+1) _ z1 _ hpt1 hz1 hB1
    simp only [List.getElem?_map, hpt, hpt1, Option.map_some, Option.some.injEq]
    rcases k with hn | ⟨h1, h0, hd1, h1p, hd0, hk⟩
    · left; exact hn
    right
    have e1 := gp1.1
    rw [hd1] at e1
    obtain ⟨mv1, me1, ms1⟩ := mkPt_pos p z1 hbp1 h1p
    have hv1 := congrArg SteadyPt.vel e1; rw [mv1] at hv1
    have he1 := congrArg SteadyPt.en e1; rw [me1] at he1
    have hs1 := congrArg SteadyPt.sf e1; rw [ms1] at hs1
    have h0p : 0 < h0 := by
      rcases hk with hk | ⟨_, _, _, _, hk, _⟩
      · rw [hk]; exact critR_pos p hbp hQ
      · exact hk
    have e0 := gp.1
    rw [hd0] at e0
    have hv0 := congrArg SteadyPt.vel e0; rw [(mkPt_pos p zi hbp h0p).1] at hv0
    refine ⟨h0, h1, _, _, hd0, hd1, hv0, hv1, h0p, h1p, ?_⟩
    rcases hk with hk | ⟨en, sn, hen, hsn, _, hres⟩
    · left
      have := critR_cube p hbp
      rw [hk]
      simpa [gravSteady, Critical] using this
    · right
      rw [he1] at hen; cases hen
      rw [hs1] at hsn; cases hsn
      convert hres using 2
      have t1 : h0 ^ (-2 : ℝ) = 1 / h0 ^ 2 := by
        rw [Real.rpow_neg h0p.le]; norm_num
      have t2 : h0 ^ (-10/3 : ℝ) = 1 / (h0 ^ 2 * h0 ^ (4/3 : ℝ)) := by
        rw [show (-10/3 : ℝ) = -(2 + 4/3) by norm_num, Real.rpow_neg h0p.le, Real.rpow_add h0p]
        norm_num
      have p4 : 0 < h0 ^ (4/3 : ℝ) := by positivity
      have p5 : 0 < h1 ^ (4/3 : ℝ) := by positivity
      unfold errR energyLevel frictionSlope Ar Br
      rw [t1, t2]
      simp only [gravSteady]
      generalize h0 ^ (4/3 : ℝ) = r0 at *
      generalize h1 ^ (4/3 : ℝ) = r1 at *
      have : B[i+1] ≠ 0 := hbp1.ne'
      generalize B[i+1] = b1 at *
      field_simp
      ring

/-- C17 as stated is false: the channel of `C16_refuted_nan` returns a nan depth at a section
where critical depth was not imposed. -/
theorem C17_refuted_nan : ∃ (p : SteadyPars) (dx z B : List ℝ) (hs vs : List (Fl ℝ)), 0 < p.Q ∧ IsChannel dx z B ∧
    steady p dx z B = .ok (hs, vs) ∧ hs[0]? = some nan := C16_refuted_nan

/-- C18: the depths and velocities of the downstream part are those of the downstream part
alone, whatever is attached upstream. -/
theorem C18_backwater (p : SteadyPars) (dxu zu Bu dx z B : List ℝ) (hu : zu.length = dxu.length) (hu' : Bu.length = dxu.length)
    (c : IsChannel dx z B) (cu : ∀ b ∈ Bu, 0 < b) (hs vs : List (Fl ℝ))
    (h : steady p (dxu ++ dx) (zu ++ z) (Bu ++ B) = .ok (hs, vs)) :
    ∃ hs' vs', steady p dx z B = .ok (hs', vs') ∧ hs.drop zu.length = hs' ∧ vs.drop zu.length = vs' := by
  have hz := List.length_pos_iff.mpr c.ne
  have cc : IsChannel (dxu ++ dx) (zu ++ z) (Bu ++ B) := by
    refine ⟨by simp [c.ne], by simp [hu, hu', c.hB], by simp [hu, c.hdx]; omega, ?_⟩
    intro b hb
    rcases List.mem_append.mp hb with h | h
    · exact cu b h
    · exact c.pos b h
  obtain ⟨pts, hp, rfl, rfl⟩ := steady_prof cc h
  have key : ∀ (dxu zu Bu : List ℝ) (pts : List SteadyPt), zu.length = dxu.length → Bu.length = dxu.length →
      steadyProf p ((dxu ++ dx).map fin) ((zu ++ z).map fin) ((Bu ++ B).map fin) = .ok pts →
      steadyProf p (dx.map fin) (z.map fin) (B.map fin) = .ok (pts.drop zu.length) := by
    intro dxu
    induction dxu with
    | nil =>
      intro zu Bu pts h1 h2 h3
      rw [List.length_eq_zero_iff.mp h1] at h3 ⊢
      rw [List.length_eq_zero_iff.mp h2] at h3
      simpa using h3
    | cons d dxu ih =>
      intro zu Bu pts h1 h2 h3
      cases zu with
      | nil => simp at h1
      | cons z0 zu =>
        cases Bu with
        | nil => simp at h2
        | cons b0 Bu =>
          have hne : ∃ z1 zs, (zu ++ z).map (fin (K := ℝ)) = z1 :: zs := by
            cases hh : (zu ++ z).map (fin (K := ℝ)) with
            | nil => simp [c.ne] at hh
            | cons z1 zs => exact ⟨z1, zs, rfl⟩
          obtain ⟨z1, zs, hzz⟩ := hne
          have ih' := fun pts => ih zu Bu pts (by simpa using h1) (by simpa using h2)
          simp only [List.cons_append, List.map_cons] at h3
          rw [hzz] at h3 ih'
          rw [steadyProf] at h3
          cases hr : steadyProf p ((dxu ++ dx).map fin) (z1 :: zs) ((Bu ++ B).map fin) with
          | error e => rw [hr] at h3; cases h3
          | ok rest =>
            have := ih' rest hr
            rw [hr] at h3
            cases rest with
            | nil => cases h3
            | cons e es =>
              simp only [bind, Except.bind] at h3
              cases hd : steadyDepth p (fin d) (fin z0) (fin b0) z1 e.dep e.en e.sf with
              | error e => rw [hd] at h3; cases h3
              | ok dep =>
                rw [hd] at h3
                simp only [pure, Except.pure, Except.ok.injEq] at h3
                subst h3
                simpa using this
  have := key dxu zu Bu pts hu hu' hp
  refine ⟨_, _, ?_, rfl, rfl⟩
  rw [steady, solveSteady_eq p _ _ _ (by simpa using c.ne) (by simpa using c.hB) (by simpa using c.hdx), this]
  simp [Except.map]

/-! ## Concrete cases -/

/-- A flat frictionless channel returns numbers: depth 19.62 m at both sections. -/
theorem flat_run : steady nanPars [10] [0, 0] [1, 1] =
    .ok ([fin (2 * 9.81), fin (2 * 9.81)], [fin (9.81 / 2), fin (9.81 / 2)]) := by
  have hc : critR nanPars 1 = 9.81 := by
    have h1 : nanPars.Q * nanPars.Q / (1 * 1 * gravSteady) = (9.81 : ℝ) ^ (3 : ℝ) := by
      norm_num [nanPars, gravSteady]
    unfold critR
    rw [h1, ← Real.rpow_mul (by norm_num)]
    norm_num
  have c0 : critDep nanPars (fin 1) = fin 9.81 := by rw [critDep_fin _ one_pos, hc]
  rw [steady, solveSteady_eq _ _ _ _ (by simp) (by simp) (by simp)]
  have hN : npmax (fin nanPars.DsWL - fin 0) (critDep nanPars (fin 1)) = fin (2 * 9.81) := by
    rw [c0]; simp only [sub_fin, npmax_fin]; norm_num [nanPars]
  obtain ⟨ev, ee, es⟩ := mkPt_pos nanPars 0 (B := 1) (h := 2 * 9.81) one_pos (by norm_num)
  have ev' : (mkPt nanPars (fin 0) (fin 1) (fin (2 * 9.81))).vel = fin (9.81 / 2) := by
    rw [ev]; norm_num [nanPars]
  have ee' : (mkPt nanPars (fin 0) (fin 1) (fin (2 * 9.81))).en = fin (17/8 * 9.81) := by
    rw [ee]; norm_num [nanPars, gravSteady]
  have es' : (mkPt nanPars (fin 0) (fin 1) (fin (2 * 9.81))).sf = fin 0 := by
    rw [es]; norm_num [nanPars]
  have hd : steadyDepth nanPars (fin 10) (fin 0) (fin 1) (fin 0) (fin (2 * 9.81)) (fin (17/8 * 9.81)) (fin 0) =
      .ok (fin (2 * 9.81)) := by
    unfold steadyDepth
    have e1 : fin nanPars.Beta * (fin nanPars.Q * fin nanPars.Q / (fin 2 * fin gravSteady * (fin 1 * fin 1))) =
        fin (9.81 ^ 3 / 2 : ℝ) := by
      simp only [mul_fin]
      rw [div_fin _ _ (by norm_num [gravSteady])]
      norm_num [nanPars, gravSteady]
    have e2 : fin 10 * (fin nanPars.Q * fin nanPars.Q) * fin (nanPars.n ^ 2) / (fin 2 * (fin 1 * fin 1)) = fin (0 : ℝ) := by
      simp only [mul_fin]
      rw [div_fin _ _ (by norm_num)]
      norm_num [nanPars]
    have e3 : (fin 0 - fin 0 * fin 10 / fin 2 - fin (17/8 * 9.81) : Fl ℝ) = fin (-(17/8) * 9.81) := by
      simp only [mul_fin]
      rw [div_fin _ _ (by norm_num)]
      simp only [sub_fin]; norm_num
    have e4 : (fin (2 * 9.81) + fin 0 - fin 0 + fin 0 * fin 10 : Fl ℝ) = fin (2 * 9.81) := by
      simp only [mul_fin, add_fin, sub_fin]; norm_num
    simp only [e1, e2, e3, e4]
    have f1 : depErr (fin (9.81 ^ 3 / 2)) (fin 0) (fin (-(17/8) * 9.81)) (fin (2 * 9.81 : ℝ)) = fin 0 := by
      rw [depErr_pos _ _ _ (by norm_num)]
      unfold errR
      rw [Real.rpow_neg (by norm_num)]
      norm_num
    have hfuel : nanPars.MaxIt - 1 = 18 + 1 := rfl
    have hT : nanPars.Tol = 0.001 := rfl
    rw [f1, hfuel, steadyNewton_succ, hT, if_neg (by simp; norm_num)]
    simp only [bind, Except.bind, pure, Except.pure, c0, blt_fin]
    rw [if_neg (by norm_num)]
  simp only [List.map_cons, List.map_nil, steadyProf]
  simp only [bind, Except.bind, pure, Except.pure, ee', es', hN]
  rw [show (mkPt nanPars (fin 0) (fin 1) (fin (2 * 9.81))).dep = fin (2 * 9.81) from rfl, hd]
  simp only [Except.map, List.map_cons, List.map_nil, ev']
  rfl

/-- The hypotheses of C15-C17 are met by a two-section channel that returns numbers. -/
example : IsChannel [10] [0, 0] [1, 1] ∧ 0 < nanPars.Q ∧
    ∃ vs, steady nanPars [10] [0, 0] [1, 1] = .ok ([fin (2 * 9.81), fin (2 * 9.81)], vs) :=
  ⟨⟨by simp, rfl, rfl, by simp⟩, by norm_num [nanPars], _, flat_run⟩

/-- C18: the flat channel is its downstream section with one more section upstream. -/
example : ∃ hs vs, steady nanPars ([10] ++ []) ([0] ++ [0]) ([1] ++ [1]) = .ok (hs, vs) := ⟨_, _, flat_run⟩

/-- The hypotheses of C15-C18 are met by a two-section channel that returns. -/
example : IsChannel [10] [9.81, 0] [1, 1] ∧ ∃ hs vs, steady nanPars [10] [9.81, 0] [1, 1] = .ok (hs, vs) :=
  ⟨⟨by simp, rfl, rfl, by simp⟩, _, _, nan_run⟩

end Verif.Props
