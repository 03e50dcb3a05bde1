import Verif.Props.MoreFlow
import Verif.Props.Flow

set_option autoImplicit false
set_option linter.unusedSectionVars false

/-! # C213: nothing that happens below a critical section is felt above it -/

namespace Verif.Props
open Verif Verif.Model Verif.Spec Fl Real

theorem prof_head {p : SteadyPars} {dx : List (Fl ℝ)} {z b : Fl ℝ} {zs bs : List (Fl ℝ)} {pts : List SteadyPt} (h : steadyProf p dx (z :: zs) (b :: bs) = .ok pts) :
    ∃ dep rest, pts = mkPt p z b dep :: rest := by
  unfold steadyProf at h
  split at h
  · rename_i e1 e2
    cases e1; cases e2; cases h
    exact ⟨_, [], rfl⟩
  · rename_i dx0 dxs z0 z1 zs0 b0 bs0 e1 e2
    cases e1; cases e2
    cases hr : steadyProf p dxs (z1 :: zs0) bs with
    | error e => rw [hr] at h; cases h
    | ok rest =>
      rw [hr] at h
      cases rest with
      | nil => cases h
      | cons d ds =>
        simp only [bind, Except.bind] at h
        cases hd : steadyDepth p dx0 z b z1 d.dep d.en d.sf with
        | error e => rw [hd] at h; cases h
        | ok dep =>
          rw [hd] at h
          simp only [pure, Except.pure, Except.ok.injEq] at h
          exact ⟨dep, d :: ds, h.symm⟩
  · cases h

/-- The sweep above a section needs to know of what is below it the depth at the section only. -/
theorem prof_above (p : SteadyPars) (S' : ℝ) (dx dx' : List (Fl ℝ)) (z b : Fl ℝ) (zs bs zs' bs' : List (Fl ℝ)) (pt : SteadyPt) (rest' : List SteadyPt)
    (h' : steadyProf { p with DsWL := S' } dx' (z :: zs') (b :: bs') = .ok (pt :: rest')) : ∀ (dxu zu bu : List (Fl ℝ)) (pts : List SteadyPt), zu.length = dxu.length → bu.length = dxu.length →
    steadyProf p (dxu ++ dx) (zu ++ z :: zs) (bu ++ b :: bs) = .ok pts → (pts[zu.length]?).map (·.dep) = some pt.dep →
    steadyProf { p with DsWL := S' } (dxu ++ dx') (zu ++ z :: zs') (bu ++ b :: bs') = .ok (pts.take zu.length ++ pt :: rest') ∧ pts[zu.length]? = some pt := by
  obtain ⟨dep', r', e'⟩ := prof_head h'
  have ept : pt = mkPt p z b dep' := (List.cons.inj e').1
  intro dxu
  induction dxu with
  | nil =>
    intro zu bu pts h1 h2 h3 h4
    rw [List.length_eq_zero_iff.mp h1] at h3 h4 ⊢
    rw [List.length_eq_zero_iff.mp h2] at h3 ⊢
    simp only [List.nil_append, List.length_nil, List.take_zero] at h3 h4 ⊢
    refine ⟨h', ?_⟩
    obtain ⟨dep, r, rfl⟩ := prof_head h3
    simp only [List.getElem?_cons_zero, Option.map_some, Option.some.injEq] at h4 ⊢
    rw [ept] at h4 ⊢
    have : dep = dep' := h4
    rw [this]
  | cons d dxu ih =>
    intro zu bu pts h1 h2 h3 h4
    cases zu with
    | nil => simp at h1
    | cons z0 zu =>
      cases bu with
      | nil => simp at h2
      | cons b0 bu =>
        have l1 : zu.length = dxu.length := by simpa using h1
        have l2 : bu.length = dxu.length := by simpa using h2
        obtain ⟨z1, zt, zt', ez, ez'⟩ : ∃ z1 zt zt', zu ++ z :: zs = z1 :: zt ∧ zu ++ z :: zs' = z1 :: zt' := by
          cases zu with
          | nil => exact ⟨z, zs, zs', rfl, rfl⟩
          | cons a as => exact ⟨a, _, _, rfl, rfl⟩
        simp only [List.cons_append] at h3 ⊢
        rw [ez, steadyProf, ← ez] at h3
        rw [ez', steadyProf, ← ez']
        cases hr : steadyProf p (dxu ++ dx) (zu ++ z :: zs) (bu ++ b :: bs) with
        | error e => rw [hr] at h3; cases h3
        | ok q =>
          rw [hr] at h3
          cases q with
          | nil => cases h3
          | cons e es =>
            simp only [bind, Except.bind] at h3
            cases hd : steadyDepth p d z0 b0 z1 e.dep e.en e.sf with
            | error e => rw [hd] at h3; cases h3
            | ok dep =>
              rw [hd] at h3
              simp only [pure, Except.pure, Except.ok.injEq] at h3
              subst h3
              simp only [List.length_cons, List.getElem?_cons_succ] at h4 ⊢
              obtain ⟨k1, k2⟩ := ih zu bu _ l1 l2 hr h4
              refine ⟨?_, k2⟩
              rw [k1]
              have hd' : steadyDepth { p with DsWL := S' } d z0 b0 z1 e.dep e.en e.sf = .ok dep := hd
              cases hz : zu.length with
              | zero =>
                rw [hz] at k2
                simp only [List.getElem?_cons_zero, Option.some.injEq] at k2
                subst k2
                simp only [List.take_zero, List.nil_append, bind, Except.bind, hd', pure, Except.pure]
                rfl
              | succ m =>
                simp only [List.take_succ_cons, List.cons_append, bind, Except.bind, hd', pure, Except.pure]
                rfl

theorem critical_eq {Q b y y' : ℝ} (hb : 0 < b) (h : Critical 9.81 Q b y) (h' : Critical 9.81 Q b y') : y = y' := by
  unfold Critical at h h'
  have hk : (0 : ℝ) < 9.81 * b ^ 2 := by positivity
  have e : y ^ 3 = y' ^ 3 := mul_left_cancel₀ hk.ne' (h.symm.trans h')
  exact (Odd.strictMono_pow (by decide : Odd 3)).injective e

/-- C213: let the steady solution for a channel have critical depth at some section, and let the channel below that section and the sea level be replaced by others, with which the section has critical depth too. Then
the solution for the whole channel is the old one above the section and the new one from there on: depths and velocities above it are the same as before. -/
theorem C213_control (p : SteadyPars) (S' : ℝ) (dxu zu Bu dx dx' zs zs' Bs Bs' : List ℝ) (zc bc : ℝ) (hu : zu.length = dxu.length) (hu' : Bu.length = dxu.length)
    (c : IsChannel (dxu ++ dx) (zu ++ zc :: zs) (Bu ++ bc :: Bs)) (c' : IsChannel dx' (zc :: zs') (bc :: Bs')) (hs vs hs' vs' : List (Fl ℝ)) (y y' : ℝ)
    (h : steady p (dxu ++ dx) (zu ++ zc :: zs) (Bu ++ bc :: Bs) = .ok (hs, vs)) (h' : steady { p with DsWL := S' } dx' (zc :: zs') (bc :: Bs') = .ok (hs', vs'))
    (hy : hs[zu.length]? = some (fin y)) (hy' : hs'[0]? = some (fin y')) (hc : Critical 9.81 p.Q bc y) (hc' : Critical 9.81 p.Q bc y') :
    steady { p with DsWL := S' } (dxu ++ dx') (zu ++ zc :: zs') (Bu ++ bc :: Bs') = .ok (hs.take zu.length ++ hs', vs.take zu.length ++ vs') := by
  have hb : 0 < bc := c'.pos bc (by simp)
  have eyy := critical_eq hb hc hc'
  subst eyy
  obtain ⟨pts, q1, rfl, rfl⟩ := steady_prof c h
  obtain ⟨pts', q2, rfl, rfl⟩ := steady_prof c' h'
  have ne' : pts' ≠ [] := steadyProf_ne_nil _ _ _ _ _ q2
  cases pts' with
  | nil => exact absurd rfl ne'
  | cons pt rest' =>
    simp only [List.map_append, List.map_cons] at q1 q2
    simp only [List.map_cons, List.getElem?_cons_zero, Option.some.injEq] at hy'
    obtain ⟨k, -⟩ := prof_above p S' (dx.map fin) (dx'.map fin) (fin zc) (fin bc) (zs.map fin) (Bs.map fin) (zs'.map fin) (Bs'.map fin) pt rest' q2 (dxu.map fin) (zu.map fin) (Bu.map fin) pts
      (by simpa using hu) (by simpa using hu') q1 (by
        rw [List.getElem?_map] at hy
        rw [List.length_map, hy, hy'])
    have l1 := c'.hB
    have l2 := c'.hdx
    simp only [List.length_cons] at l1 l2
    rw [steady, solveSteady_eq _ _ _ _ (by simp) (by simp; omega) (by simp; omega)]
    simp only [List.map_append, List.map_cons]
    rw [k]
    simp only [Except.map, List.map_append, List.map_cons, List.map_take, List.length_map]

/-- C213, the sea: two sea levels neither of which is above the critical level of the last section give the same solution, or the same error. -/
theorem C213_sea (p : SteadyPars) (S' : ℝ) (dx zu Bu : List ℝ) (zc bc : ℝ) (c : IsChannel dx (zu ++ [zc]) (Bu ++ [bc])) (y : ℝ) (hc : Critical 9.81 p.Q bc y)
    (hS : p.DsWL ≤ zc + y) (hS' : S' ≤ zc + y) : steady { p with DsWL := S' } dx (zu ++ [zc]) (Bu ++ [bc]) = steady p dx (zu ++ [zc]) (Bu ++ [bc]) := by
  have hb : 0 < bc := c.pos bc (by simp)
  have hcr : critR p bc = y := critical_eq hb (critR_cube p hb) hc
  have l1 := c.hB
  have l2 := c.hdx
  simp only [List.length_append, List.length_singleton] at l1 l2
  have key : ∀ (zu dx Bu : List (Fl ℝ)), steadyProf { p with DsWL := S' } dx (zu ++ [fin zc]) (Bu ++ [fin bc]) = steadyProf p dx (zu ++ [fin zc]) (Bu ++ [fin bc]) := by
    have hN : npmax (fin S' - fin zc) (critDep p (fin bc)) = npmax (fin p.DsWL - fin zc) (critDep p (fin bc)) := by
      rw [critDep_fin _ hb, hcr, sub_fin, sub_fin, npmax_fin, npmax_fin, max_eq_right (by linarith), max_eq_right (by linarith)]
    intro zu
    induction zu with
    | nil =>
      intro dx Bu
      cases Bu with
      | nil =>
        simp only [List.nil_append, steadyProf]
        show Except.ok [mkPt p (fin zc) (fin bc) (npmax (fin S' - fin zc) (critDep p (fin bc)))] = _
        rw [hN]
      | cons b Bu =>
        cases Bu <;> cases dx <;> simp [steadyProf]
    | cons z zu ih =>
      intro dx Bu
      obtain ⟨z1, zt, ez⟩ : ∃ z1 zt, zu ++ [fin zc] = z1 :: zt := by
        cases zu with
        | nil => exact ⟨_, _, rfl⟩
        | cons a as => exact ⟨a, _, rfl⟩
      rw [List.cons_append]
      cases dx with
      | nil => rw [ez]; cases Bu <;> simp [steadyProf]
      | cons d dx =>
        cases Bu with
        | nil =>
          rw [ez]
          simp only [List.nil_append, steadyProf]
          rfl
        | cons b Bu =>
          rw [List.cons_append, ez, steadyProf, steadyProf, ← ez, ih dx Bu]
          rfl
  rw [steady, steady, solveSteady_eq _ _ _ _ (by simp) (by simp; omega) (by simp; omega), solveSteady_eq _ _ _ _ (by simp) (by simp; omega) (by simp; omega)]
  simp only [List.map_append, List.map_cons, List.map_nil]
  rw [key]

/-! ## A lagoon above a steep outlet -/

/-- Concrete case: the lagoon of `plunge_run`, whose outlet falls freely into the sea. With the sea a metre lower nothing changes; with another 100 m of outlet channel at the critical slope, down to a lower sea, the
level in the lagoon is the same. -/
example : ∃ (x s : ℝ) (vs vs' : List (Fl ℝ)), 0 < s ∧ steady (plungePars (1/8)) [42] [-2, 0] [1000, 10] = .ok ([x, 1/8].map fin, vs) ∧
    steady { plungePars (1/8) with DsWL := -2 } [42] [-2, 0] [1000, 10] = .ok ([x, 1/8].map fin, vs) ∧
    steady { plungePars (1/8) with DsWL := -(100 * s) + 1/8 } [42, 100] [-2, 0, -(100 * s)] [1000, 10, 10] = .ok ([x, 1/8, 1/8].map fin, vs') := by
  have e8 : ((1/2 : ℝ)) ^ 3 = 1/8 := by norm_num
  obtain ⟨x, vs, -, hr, -⟩ := plunge_run (r := 1/2) le_rfl (by norm_num) (by rw [abs_le]; constructor <;> norm_num)
  rw [e8] at hr
  have y0 : (0 : ℝ) < 1/8 := by norm_num
  have hq := plunge_sq y0
  have hQ : 0 < (plungePars (1/8)).Q := sqrt_pos.mpr (by norm_num)
  have hcr : Critical 9.81 (plungePars (1/8)).Q 10 (1/8) := by
    unfold Critical
    rw [sq, hq]
    norm_num
  have c : IsChannel [42] [-2, 0] [1000, 10] := ⟨by simp, rfl, rfl, by simp⟩
  set V : ℝ := (plungePars (1/8)).Q / (10 * (1/8)) with hV
  have V0 : 0 < V := by positivity
  set s : ℝ := (plungePars (1/8)).n ^ 2 * (V * |V|) / (1/8 : ℝ) ^ (4/3 : ℝ) with hs
  have s0 : 0 < s := by
    have hn : 0 < (plungePars (1/8)).n := by show (0:ℝ) < 1/20; norm_num
    have := abs_pos.mpr V0.ne'
    positivity
  have low : steady { plungePars (1/8) with DsWL := -(100 * s) + 1/8 } [100] [0, -(100 * s)] [10, 10] = .ok ([fin (1/8), fin (1/8)], [fin V, fin V]) := by
    have k := C120_steady { plungePars (1/8) with DsWL := -(100 * s) + 1/8 } (by show (0:ℝ) ≤ 1/1000; norm_num) 2 (by norm_num)
      { z := fun k => if k = 0 then 0 else -(100 * s), B := fun _ => 10, dx := fun _ => 100, h := fun _ => 1/8, V := fun _ => V, len := fun _ => 0 } 10 (1/8) V
      ⟨fun _ _ => rfl, fun _ _ => rfl, fun _ _ => rfl, fun r hr => by
        have : r = 0 := by omega
        subst this
        simp [hs]⟩ (by norm_num) y0 V0 (by show (plungePars (1/8)).Q = _; rw [hV]; field_simp) (by simp) (by
        unfold NotSupercritical
        exact le_of_eq hcr)
    exact k
  refine ⟨x, s, vs, vs.take 1 ++ [fin V, fin V], s0, hr, ?_, ?_⟩
  · rw [← hr]
    exact C213_sea (plungePars (1/8)) (-2) [42] [-2] [1000] 0 10 c (1/8) hcr (by show (-1 : ℝ) ≤ _; norm_num) (by norm_num)
  · exact C213_control (plungePars (1/8)) (-(100 * s) + 1/8) [42] [-2] [1000] [] [100] [] [-(100 * s)] [] [10] 0 10 rfl rfl c ⟨by simp, rfl, rfl, by simp⟩ _ _ _ _ (1/8) (1/8) hr low rfl rfl hcr hcr

end Verif.Props
