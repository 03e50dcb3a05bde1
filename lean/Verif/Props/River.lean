import Verif.Props.MorRiver
import Verif.Props.Ends
import Verif.Props.Runs
import Verif.Spec.River

set_option autoImplicit false
set_option linter.unusedSectionVars false

/-! # C147: the river bed gains what the bedload loses

C35 is about rates; here the river bed is followed through whole steps and whole runs. -/

namespace Verif.Props
open Verif Verif.Model Fl Verif.Spec

variable {K : Type} [Field K] [LinearOrder K] [IsStrictOrderedRing K]

theorem limit_riv {R R' : Rates K} {v : Fl K} {lim : K} {dtMin dt : ℤ} (hlim : 0 ≤ lim) (hf : R.Finite) (hm : maxRate R = .ok v)
    (h : limitRates v lim dtMin dt R = .ok R') {k : ℕ} {x : K} (hx : R.riv[k]? = some (fin x)) :
    ∃ x', R'.riv[k]? = some (fin x') ∧ x' * (secs dt : K) = capped lim (x * (secs dt : K)) := by
  obtain ⟨m, rfl, hb⟩ := maxRate_fin hf hm
  have hs : (0 : K) ≤ (secs dt : K) := by exact_mod_cast secs_nonneg dt
  unfold limitRates at h
  split at h
  · simp only [bind_ok] at h
    obtain ⟨_, _, h⟩ := h
    split at h
    · cases h
    · next hne =>
      have hpos : (0 : K) < (secs dt : K) := by
        have : 0 < secs dt := lt_of_le_of_ne (secs_nonneg dt) (Ne.symm hne)
        exact_mod_cast this
      cases h
      refine ⟨min (max x (-(lim / (secs dt : K)))) (lim / (secs dt : K)), ?_, ?_⟩
      · simp only [List.getElem?_map, hx, Option.map_some, clip, npmax_fin, npmin_fin]
      · unfold capped
        have hL : 0 ≤ lim / (secs dt : K) := div_nonneg hlim hs
        have e : lim / (secs dt : K) * (secs dt : K) = lim := div_mul_cancel₀ _ (ne_of_gt hpos)
        rw [min_mul_of_nonneg _ _ hs, max_mul_of_nonneg _ _ hs, neg_mul, e]
        rcases le_total (x * (secs dt : K)) (-lim) with g | g
        · rw [max_eq_right g, min_eq_left (by linarith), min_eq_left (by linarith), max_eq_left g]
        · rw [max_eq_left g]
          exact (max_eq_right (le_min g (by linarith))).symm
  · next hn =>
    cases h
    refine ⟨x, hx, ?_⟩
    simp only [mul_fin, blt_fin, decide_eq_true_eq, not_lt] at hn
    have hb' := hb R.riv (by simp [Rates.cols]) x (List.mem_of_getElem? hx)
    have := le_trans (mul_le_mul_of_nonneg_right hb' hs) hn
    have h1 : x * (secs dt : K) ≤ lim := (mul_le_mul_of_nonneg_right (le_abs_self x) hs).trans this
    have h2 : -lim ≤ x * (secs dt : K) := by
      have := mul_le_mul_of_nonneg_right (neg_abs_le x) hs
      linarith
    unfold capped
    rw [min_eq_left h1, max_eq_right h2]

theorem allRates_riv {pp : PhysPars K} {a : MorIn K} {rb : ℕ} {cells cells' : List (Cell K)} {R R1 : Rates K}
    (hall : allRates pp a rb cells = .ok (R, cells')) (h1 : riverRates pp a cells = .ok R1) : R.riv = R1.riv := by
  unfold allRates at hall
  simp only [bind_ok] at hall
  obtain ⟨R1', g1, ⟨R2, c2⟩, g2, R3, g3, hall⟩ := hall
  rw [h1] at g1
  cases g1
  cases hall
  have e2 : R2.riv = R1.riv := by
    unfold lstRates at g2
    simp only [bind_ok] at g2
    obtain ⟨y0, _, g2⟩ := g2
    split at g2
    · cases g2; rfl
    · simp only [bind_ok] at g2
      obtain ⟨l, _, g2⟩ := g2
      split at g2
      · simp only [bind_ok, pure_ok] at g2
        obtain ⟨_, _, g2⟩ := g2
        cases g2; rfl
      · simp only [bind_ok, pure_ok] at g2
        obtain ⟨_, _, g2⟩ := g2
        cases g2; rfl
  unfold cstRates at g3
  simp only at g3
  split at g3
  · cases g3
  · cases g3; exact e2

/-- C147, one step: the bed of the first section of the river does not move, and that of every other section rises by the
bedload coming in less the bedload going out, spread over the width of the river and the distance between sections, times
`MorDt.seconds`, but by no more than MaxMorChange up or down: no repair or breach touches the river. -/
theorem C147_step (pp : PhysPars K) (j1 j2 : ℕ → Bool) (a : MorIn K) (o : MorOut K) (h : updateMorphology pp j1 j2 a = .ok o)
    (bs : List K) (nr : ℕ) (H : ChannelArrays a bs nr) (hne : bs ≠ []) (hD : 0 < a.Dx) (hRW : 0 < pp.RiverWidth) (hB : 0 ≤ a.MaxMorChange)
    (hreg : Regular pp a) :
    a.RiverElev.length = nr + 1 ∧ o.RiverElev.length = nr + 1 ∧ o.RiverElev[0]? = a.RiverElev[0]? ∧
    ∀ k, k < nr → ∀ z, a.RiverElev[k + 1]? = some (fin z) →
      o.RiverElev[k + 1]? = some (fin (z + capped a.MaxMorChange ((bs.getD k 0 - bs.getD (k + 1) 0) / (pp.RiverWidth * a.Dx) * (secs o.MorDt : K)))) := by
  obtain ⟨X0, s0, h0, er⟩ := update_riv h
  obtain ⟨rb, cells', R, R', rate, hp, hall, hr, hd, hl, ha⟩ := force_inv h0
  obtain ⟨R1, vs, hR1, v1, v2, _, v3, v4, _⟩ := C35_conserves pp a (a.rows.mapIdx (mkCell pp a)) bs nr H hne hD hRW
  have eriv := allRates_riv hall hR1
  have hF := regular_finite hreg hp hall
  have hlen : R'.riv.length = nr := by
    have := congrArg (fun l => l[8]?) (limit_small hB hF hr hl).2
    simp only [Rates.cols, List.map_cons, List.getElem?_cons_succ, List.getElem?_cons_zero, Option.some.injEq] at this
    rw [this, eriv, v4]
  unfold applyRates at ha
  simp only at ha
  split at ha
  · cases ha
  · next hle =>
    rw [not_not, hlen] at hle
    rw [er, ← ok_inj.mp ha]
    refine ⟨hle.symm, by simp [hlen, ← hle]; omega, ?_, ?_⟩
    · cases hz : a.RiverElev with
      | nil => rw [hz] at hle; cases hle
      | cons z zs => rfl
    · intro k hk z hz
      obtain ⟨p, v, hp1, hp2, hp3⟩ := v3 k hk
      rw [← eriv] at hp1
      obtain ⟨x', hx', ex⟩ := limit_riv hB hF hr hl hp1
      have hv : v = bs.getD k 0 - bs.getD (k + 1) 0 := by
        rw [v2 k (by rw [v1]; omega)] at hp2
        exact (Option.some.inj hp2).symm
      have hp4 : p = (bs.getD k 0 - bs.getD (k + 1) 0) / (pp.RiverWidth * a.Dx) := by
        rw [← hv, ← hp3]
        unfold gain
        field_simp
        ring
      rw [← hp4, ← ex]
      cases hzz : a.RiverElev with
      | nil => rw [hzz] at hle; cases hle
      | cons z0 zs =>
        rw [hzz] at hz
        simp only [List.getElem?_cons_succ] at hz
        simp only [List.take_succ_cons, List.take_zero, List.tail_cons, List.singleton_append, List.getElem?_cons_succ]
        rw [List.getElem?_zipWith, hz, hx']
        simp only [mul_fin, add_fin]

/-- C147, the whole river over one step: as long as no section is limited by MaxMorChange, the volume of the river bed grows
by the bedload entering it less the bedload leaving it for the lagoon. -/
theorem C147_total (pp : PhysPars K) (j1 j2 : ℕ → Bool) (a : MorIn K) (o : MorOut K) (h : updateMorphology pp j1 j2 a = .ok o)
    (bs : List K) (nr : ℕ) (H : ChannelArrays a bs nr) (hne : bs ≠ []) (hD : 0 < a.Dx) (hRW : 0 < pp.RiverWidth) (hB : 0 ≤ a.MaxMorChange)
    (hreg : Regular pp a) (hz : ∀ z ∈ a.RiverElev, IsNumber z)
    (hs : ∀ k, k < nr → |bs.getD k 0 - bs.getD (k + 1) 0| * (secs o.MorDt : K) ≤ a.MaxMorChange * (pp.RiverWidth * a.Dx)) :
    (∀ z ∈ o.RiverElev, IsNumber z) ∧
    bedVolume pp.RiverWidth a.Dx o.RiverElev = bedVolume pp.RiverWidth a.Dx a.RiverElev + (bs.getD 0 0 - bs.getD nr 0) * (secs o.MorDt : K) := by
  obtain ⟨l1, l2, e0, ek⟩ := C147_step pp j1 j2 a o h bs nr H hne hD hRW hB hreg
  have hP : 0 < pp.RiverWidth * a.Dx := mul_pos hRW hD
  have hsec : (0 : K) ≤ (secs o.MorDt : K) := by exact_mod_cast secs_nonneg o.MorDt
  have cap : ∀ k, k < nr → capped a.MaxMorChange ((bs.getD k 0 - bs.getD (k + 1) 0) / (pp.RiverWidth * a.Dx) * (secs o.MorDt : K)) =
      (bs.getD k 0 - bs.getD (k + 1) 0) / (pp.RiverWidth * a.Dx) * (secs o.MorDt : K) := by
    intro k hk
    have h1 : |(bs.getD k 0 - bs.getD (k + 1) 0) / (pp.RiverWidth * a.Dx) * (secs o.MorDt : K)| ≤ a.MaxMorChange := by
      rw [abs_mul, abs_div, abs_of_pos hP, abs_of_nonneg hsec, div_mul_eq_mul_div, div_le_iff₀ hP]
      exact hs k hk
    obtain ⟨g1, g2⟩ := abs_le.mp h1
    unfold capped
    rw [min_eq_left g2, max_eq_right g1]
  have hzk : ∀ k, k < nr + 1 → ∃ z, a.RiverElev[k]? = some (fin z) := by
    intro k hk
    have hk' : k < a.RiverElev.length := by omega
    have := hz _ (List.getElem_mem hk')
    rw [List.getElem?_eq_getElem hk']
    cases hv : a.RiverElev[k] with
    | fin z => exact ⟨z, rfl⟩
    | nan => rw [hv] at this; cases this
    | pinf => rw [hv] at this; cases this
    | ninf => rw [hv] at this; cases this
  refine ⟨?_, ?_⟩
  · intro z hzm
    obtain ⟨k, hk⟩ := List.getElem?_of_mem hzm
    have hkl := (List.getElem?_eq_some_iff.mp hk).1
    cases k with
    | zero =>
      rw [e0] at hk
      exact hz _ (List.mem_of_getElem? hk)
    | succ k =>
      obtain ⟨z1, hz1⟩ := hzk (k + 1) (by omega)
      rw [ek k (by omega) z1 hz1] at hk
      cases hk
      trivial
  · have key : ∀ n, n ≤ nr → (((o.RiverElev.tail.take n).map numOf).sum = ((a.RiverElev.tail.take n).map numOf).sum +
        (bs.getD 0 0 - bs.getD n 0) / (pp.RiverWidth * a.Dx) * (secs o.MorDt : K)) := by
      intro n
      induction n with
      | zero => intro _; simp
      | succ n ih =>
        intro hn
        obtain ⟨z1, hz1⟩ := hzk (n + 1) (by omega)
        have ho := ek n (by omega) z1 hz1
        rw [cap n (by omega)] at ho
        rw [← List.getElem?_tail] at hz1 ho
        rw [List.take_add_one, List.take_add_one, hz1, ho]
        simp only [Option.toList_some, List.map_append, List.map_cons, List.map_nil, List.sum_append, List.sum_cons, List.sum_nil, numOf]
        rw [ih (by omega)]
        ring
    have := key nr (le_refl _)
    rw [List.take_of_length_le (by simp; omega), List.take_of_length_le (by simp; omega)] at this
    unfold bedVolume
    rw [this]
    field_simp

variable [FloorRing K]

/-- C147: the bed of the first section of the river is where it was at the start, throughout every run. -/
theorem C147_upstream {e : Env K} {ld : LoadOut K} {s0 s : CoreSt K} {tr : List (CoreSt K × PassOut K × CoreSt K)}
    (h0 : initial e ld = .ok s0) (h : Run e s0 tr s) : s.RiverElev[0]? = ld.RiverElev[0]? := by
  induction h with
  | start =>
    unfold initial at h0
    simp only [bind_ok, pure_ok] at h0
    obtain ⟨fl, _, sl, _, w, _, c, hc, q, _, sq, _, ⟨dep, vel⟩, _, hyd, _, d, _, v, _, cw, _, rfl⟩ := h0
    rfl
  | @pass tr s s' p _ _ hp ih =>
    obtain ⟨⟨fl, sl, hc⟩, ha⟩ := pass_inv hp
    rw [ha.riv, ← ih]
    obtain ⟨X0, st, g, er⟩ := update_riv hc.mor
    obtain ⟨rb, cells', R, R', rate, _, _, _, _, _, ga⟩ := force_inv g
    unfold applyRates at ga
    simp only at ga
    split at ga
    · cases ga
    · next hle =>
      rw [er, ← ok_inj.mp ga]
      show _ = s.RiverElev[0]?
      simp only [morIn] at hle ⊢
      cases hz : s.RiverElev with
      | nil => rw [hz] at hle; simp at hle
      | cons z zs => rfl

/-- The channel arrays of a pass are those of a river of `nr + 1` sections followed by lagoon and outlet. -/
theorem pass_arrays {e : Env K} {s : CoreSt K} {p : PassOut K} {xs : List K} {nr : ℕ} (hs : Sized xs (nr + 1) s) (hk : PassOk xs (nr + 1) p)
    (s' : CoreSt K) (hb : ∀ v ∈ p.bed, IsNumber v) : ChannelArrays (stepIn e (s, p, s')) (p.bed.map numOf) nr where
  flag := by
    show p.chan.flag = _
    rw [hk.chan.flag]
    show _ = 0 :: (List.replicate nr 0 ++ List.replicate p.chan.online.length 1 ++ (if p.chan.closed then [] else List.replicate p.chan.outlet.length 2 ++ [3])) ++
      (if p.chan.closed then [] else [4])
    cases p.chan.closed <;> simp [List.replicate_succ]
  width := hk.chan.len.width
  dep := hk.dep
  bed := by
    show p.bed = _
    rw [List.map_map]
    refine ((List.map_congr_left (g := id) ?_).trans (List.map_id _)).symm
    intro v hv
    have := hb v hv
    cases v with
    | fin x => rfl
    | nan => cases this
    | pinf => cases this
    | ninf => cases this
  reaches := by rw [List.length_map]; exact hk.bed
  onNodup := hk.chan.nodup
  outNodup := hk.chan.onodup
  onIn := by
    have : (stepIn e (s, p, s')).rows.length = xs.length := by
      show s.rows.length = _
      rw [← hs.rows, List.length_map]
    rw [this]; exact hk.chan.bound
  outIn := by
    have : (stepIn e (s, p, s')).rows.length = xs.length := by
      show s.rows.length = _
      rw [← hs.rows, List.length_map]
    rw [this]; exact hk.chan.obound

/-- C147, whole runs: if the arguments of every step are regular and no section of the river is limited by MaxMorChange,
then the volume of the river bed has at any time grown since the start by all the bedload that has entered at the top less all that
has left for the lagoon. -/
theorem C147_run {e : Env K} (hP : PartsLen e.parts) {ld : LoadOut K} (hl : LoadSized ld) {s0 s : CoreSt K}
    {tr : List (CoreSt K × PassOut K × CoreSt K)} (h0 : initial e ld = .ok s0) (h : Run e s0 tr s)
    (nr : ℕ) (hnr : ld.RiverElev.length = nr + 1) (hD : 0 < e.Dx) (hRW : 0 < e.pp.RiverWidth) (hB : 0 ≤ e.MaxMorChange)
    (hz : ∀ z ∈ ld.RiverElev, IsNumber z) (hreg : ∀ x ∈ tr, Regular e.pp (stepIn e x))
    (hs : ∀ x ∈ tr, ∀ k, k < nr → |(x.2.1.bed.map numOf).getD k 0 - (x.2.1.bed.map numOf).getD (k + 1) 0| * (secs x.2.1.mor.MorDt : K) ≤
      e.MaxMorChange * (e.pp.RiverWidth * e.Dx)) :
    (∀ z ∈ s.RiverElev, IsNumber z) ∧ bedVolume e.pp.RiverWidth e.Dx s.RiverElev = bedVolume e.pp.RiverWidth e.Dx ld.RiverElev +
      (tr.map (fun x => ((x.2.1.bed.map numOf).getD 0 0 - (x.2.1.bed.map numOf).getD nr 0) * (secs x.2.1.mor.MorDt : K))).sum := by
  induction h with
  | start =>
    have : s0.RiverElev = ld.RiverElev := by
      unfold initial at h0
      simp only [bind_ok, pure_ok] at h0
      obtain ⟨fl, _, sl, _, w, _, c, hc, q, _, sq, _, ⟨dep, vel⟩, _, hyd, _, d, _, v, _, cw, _, rfl⟩ := h0
      rfl
    rw [this]
    exact ⟨hz, by simp⟩
  | @pass tr s s' p hrun hle hp ih =>
    obtain ⟨i1, i2⟩ := ih (fun x hx => hreg x (List.mem_append_left _ hx)) (fun x hx => hs x (List.mem_append_left _ hx))
    have hsz := (run_sized hP hl h0 hrun).1
    rw [hnr] at hsz
    have hp' := hp
    unfold Verif.Model.pass at hp'
    simp only [bind_ok, pure_ok] at hp'
    obtain ⟨p1, hcomp, s1, _, he⟩ := hp'
    cases he
    have hk := compute_ok hP hsz hcomp
    obtain ⟨⟨fl, sl, hc⟩, ha⟩ := pass_inv hp
    have hr := hreg (s, p, s') (by simp)
    have hbed : ∀ v ∈ p.bed, IsNumber v := hr.2.2.1
    have hA := pass_arrays (e := e) hsz hk s' hbed
    have hne : p.bed.map numOf ≠ [] := by
      have := hk.bed
      have h2 := hk.chan.count
      have h3 := List.length_pos_iff.mpr hk.chan.ne
      intro hn
      have : (p.bed.map numOf).length = 0 := by rw [hn]; rfl
      rw [List.length_map] at this
      omega
    obtain ⟨t1, t2⟩ := C147_total e.pp _ _ (stepIn e (s, p, s')) p.mor hc.mor (p.bed.map numOf) nr hA hne hD hRW hB hr i1
      (hs (s, p, s') (by simp))
    refine ⟨by rw [ha.riv]; exact t1, ?_⟩
    rw [ha.riv]
    refine t2.trans ?_
    show bedVolume e.pp.RiverWidth e.Dx s.RiverElev + _ = _
    rw [i2, List.map_append, List.sum_append]
    simp only [List.map_cons, List.map_nil, List.sum_cons, List.sum_nil]
    ring

/-- The sample with an open outlet and more bedload in the river than leaves it. -/
def rvIn : MorIn ℚ := { brIn with Bedload := brIn.Bedload.set 0 (fin (1/50)) }

/-- Concrete case for one step: the bed of the second section rises by 1/100 m3/s over 70 m x 10 m. -/
example : ChannelArrays rvIn [1/50, 1/100, 1/200, 1/100, 1/100, 1/200] 1 ∧ Regular moPP rvIn ∧ 0 < rvIn.Dx ∧ 0 < moPP.RiverWidth ∧ 0 ≤ rvIn.MaxMorChange ∧
    okAnd (updateMorphology moPP cleanMem cleanMem rvIn) (fun o => decide (secs o.MorDt = 240) &&
      decide (|(1/50 - 1/100 : ℚ)| * 240 ≤ rvIn.MaxMorChange * (moPP.RiverWidth * rvIn.Dx)) &&
      decide (o.RiverElev = [fin 1, fin (240 / (100 * (moPP.RiverWidth * 10)))])) = true :=
  ⟨⟨by decide +kernel, by decide +kernel, by decide +kernel, by decide +kernel, by decide +kernel, by decide +kernel, by decide +kernel,
    by decide +kernel, by decide +kernel⟩, by decide +kernel, by decide +kernel, by decide +kernel, by decide +kernel, by decide +kernel⟩

/-- With a hundred thousand times as much the bed rises by MaxMorChange. -/
example : okAnd (updateMorphology moPP cleanMem cleanMem { brIn with Bedload := brIn.Bedload.set 0 (fin 1000) }) (fun o =>
    decide (o.RiverElev = [fin 1, fin (1/4)])) = true := by decide +kernel

/-- The sample run with bedload into the river and none out of it. -/
def rvEnv : Env ℚ := { coEnv with parts := { coParts with bedload := fun B _ _ => .ok (fin (1/50) :: B.tail.tail.map (fun _ => fin 0)) } }

theorem rvParts : PartsLen rvEnv.parts := ⟨coParts_len.unsteady, coParts_len.steady, coParts_len.lst, coParts_len.overtop⟩

/-- Concrete case for runs: both passes of the sample run are regular and not limited, and the river bed rises. -/
example : okAnd (initial rvEnv coLoad) (fun s0 => okAnd (trace rvEnv s0 2) (fun x => x.1.all (fun y =>
    decide (Regular rvEnv.pp (stepIn rvEnv y)) &&
    decide (|(y.2.1.bed.map numOf).getD 0 0 - (y.2.1.bed.map numOf).getD 1 0| * (secs y.2.1.mor.MorDt : ℚ) ≤ rvEnv.MaxMorChange * (rvEnv.pp.RiverWidth * rvEnv.Dx)) &&
    decide (0 < (y.2.1.bed.map numOf).getD 0 0)) && decide (fin 0 <? x.2.RiverElev.getD 1 nan))) = true := by decide +kernel

end Verif.Props
