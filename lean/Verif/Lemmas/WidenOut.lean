import Verif.Lemmas.Widen

set_option autoImplicit false
set_option linter.unusedSectionVars false

/-! # Lemmas for C203: which sections of the outlet channel erode their bed -/

namespace Verif.Model
open Verif Fl Verif.Spec List

variable {K : Type} [Field K] [LinearOrder K] [IsStrictOrderedRing K]

/-- The rates of the outlet channel at transect `i`, its `k`-th. -/
theorem outlet_answers {pp : PhysPars K} {a : MorIn K} {cells : List (Cell K)} {R : Rates K} (h : riverRates pp a cells = .ok R) (hc : a.Closed = false) {bs : List K} {nr : ℕ}
    (hflag : a.ChanFlag = 0 :: secFlags a.Closed nr a.online.length a.outlet.length ++ (if a.Closed then [] else [4]))
    (hbed : a.Bedload = bs.map fin) (hlen : bs.length + 1 = a.ChanFlag.length)
    (hwl : a.ChanWidth.length = a.ChanFlag.length) (hdl : a.ChanDep.length = a.ChanFlag.length) (hnd : a.outlet.Nodup)
    {k i : ℕ} {r : Transect K} {w d y1 y2 z0 z1 z2 : K} (hk : a.outlet[k]? = some i) (hr : a.rows[i]? = some r)
    (hw : a.ChanWidth[nr + a.online.length + k + 1]? = some (fin w)) (hd : a.ChanDep[nr + a.online.length + k + 1]? = some (fin d)) (hd0 : 0 < d) (h1 : r.y1 = fin y1)
    (h2 : r.y2 = fin y2) (hz0 : r.z0 = fin z0) (hz1 : r.z1 = fin z1) (hz2 : r.z2 = fin z2) (hb : y2 < y1) (hz : z1 < z0) (hB : z1 < z2) (hD : 0 < a.Dx) :
    ∃ p q s, R.z1[i]? = some (fin p) ∧ R.y1[i]? = some (fin q) ∧ R.y2[i]? = some (fin (-s)) ∧
      Answers pp.WidthDepthRatio w d (bs.getD (nr + a.online.length + k) 0 - bs.getD (nr + a.online.length + k + 1) 0) p q ∧
      Answers pp.WidthDepthRatio w d (bs.getD (nr + a.online.length + k) 0 - bs.getD (nr + a.online.length + k + 1) 0) p s := by
  obtain ⟨ss, g1, g2, g3⟩ := sections_ok pp a bs nr a.online.length a.outlet.length hflag hbed hlen hwl hdl
  obtain ⟨_, _, _, _, b5⟩ := sec_blocks g2
  obtain ⟨b3, _⟩ := b5 hc
  have hkl := (List.getElem?_eq_some_iff.mp hk).1
  have hsl : nr + a.online.length + k < ss.length := by
    have := congrArg List.length g2
    unfold secFlags at this
    rw [hc] at this
    simp only [Bool.false_eq_true, if_false, length_map, length_append, length_replicate, length_singleton] at this
    omega
  have hs : ss[nr + a.online.length + k]? = some ss[nr + a.online.length + k] := getElem?_eq_getElem hsl
  generalize ss[nr + a.online.length + k] = s at hs
  have hwide := sections_wide g1 hs hw hd
  have hdv : s.dvol = fin (bs.getD (nr + a.online.length + k) 0 - bs.getD (nr + a.online.length + k + 1) 0) := by
    have := congrArg (fun l => l[nr + a.online.length + k]?) g3
    simp only [getElem?_map, hs, Option.map_some, hc, Bool.false_eq_true, if_false] at this
    have hnl : nr + a.online.length + k < (netIn bs).length := by
      have := congrArg List.length g3
      simp only [length_map, hc, Bool.false_eq_true, if_false] at this
      omega
    rw [netIn_length] at hnl
    have hget : ∀ m, m < bs.length → bs[m]? = some (bs.getD m 0) := by
      intro m hm
      rw [List.getD_eq_getElem?_getD, getElem?_eq_getElem hm]; rfl
    rw [netIn_getElem? bs (nr + a.online.length + k) (hget _ (by omega)) (hget _ (by omega)), Option.map_some] at this
    exact Option.some.inj this
  obtain ⟨p, q, t, e1, e2, e3, e4, e5⟩ := section_answers hdv hd0 hwide (sub_pos.mpr hb) (sub_pos.mpr hz) (sub_pos.mpr hB) hD
  unfold riverRates at h
  simp only [bind_ok] at h
  obtain ⟨ss', hss, onRows, hon, z3', hz3', y3', hy3', y4', hy4', h⟩ := h
  rw [g1] at hss
  cases hss
  rw [if_neg (by rw [hc]; simp)] at h
  simp only [bind_ok, pure_ok] at h
  obtain ⟨outRows, hout, z1', hz1', y1', hy1', y2', hy2', _, _, _, _, rfl⟩ := h
  have hsk : (ss.filter (·.flag == 2))[k]? = some s := by rw [b3 k hkl]; exact hs
  have k1 := addCol_at hz1' hnd hout hk hsk hr
  have k2 := addCol_at hy1' hnd hout hk hsk hr
  have k3 := addCol_at hy2' hnd hout hk hsk hr
  refine ⟨p, q, t, ?_, ?_, ?_, e4, e5⟩
  · show z1'[i]? = _
    rw [k1, h1, h2, sub_fin, e1]; simp
  · show y1'[i]? = _
    rw [k2, hz0, hz1, sub_fin, e2]; simp
  · show y2'[i]? = _
    rw [k3, hz2, hz1, sub_fin, e3]; simp

end Verif.Model
