import Verif.Lemmas.ViewInv
import Verif.Lemmas.Run
import Verif.Spec.View
import Verif.Props.Runs
import Verif.Props.MorStep

set_option autoImplicit false
set_option linter.unusedSectionVars false

/-! # C100-C104: the map view -/

namespace Verif.Props
open Verif Verif.Model Verif.Spec Fl

variable {K : Type} [Field K] [LinearOrder K] [IsStrictOrderedRing K] [FloorRing K]

/-! ## C100 -/

theorem width_pos {a b : Fl K} (h : (fin 0 <? (a - b)) = true) : (b <? a) = true := by
  cases a with
  | fin a => cases b with
    | fin b => simpa [sub_pos] using h
    | _ => first | rfl | exact Bool.noConfusion (show false = true from h)
  | _ => cases b <;> first | rfl | exact Bool.noConfusion (show false = true from h)

theorem assembled_outlet {pp : PhysPars K} {a : ChanIn K} {c : ChanOut K} (h : assembleChannel pp a = .ok c) :
    (∀ i ∈ c.outlet, i < a.rows.length) ∧ (c.closed = false → c.outlet ≠ []) ∧ (a.Closed = true → c.outlet = []) ∧
    ∃ r ∈ a.rows, (r.y4 <? r.y3) = true := by
  obtain ⟨X0, r0, w, C1, s1, s, onRows, outRows, H⟩ := assemble_inv h
  refine ⟨?_, fun hc => (H.lens.2 hc).2.2, ?_, ?_⟩
  · have ho : c.outlet = [] ∨ c.outlet = outletIx a.rows a.EndX0 a.EndX1 := by
      rcases outlet_inv H.outlet with ⟨_, h2, _⟩ | ⟨_, rs, _, _, h5⟩
      · exact .inl h2
      · rcases h5 with ⟨_, h5, _⟩ | ⟨_, h5, _⟩
        · exact .inl h5
        · exact .inr h5
    rcases ho with ho | ho <;> rw [ho]
    · simp
    · exact outletIx_bound _ _ _
  · intro hc
    rcases outlet_inv H.outlet with ⟨_, h2, _⟩ | ⟨h1, _⟩
    · exact h2
    · rw [hc] at h1; cases h1
  · exact ⟨r0, List.mem_of_getElem? H.hr0, width_pos H.w0⟩

/-- Claim C100 in full: with live plotting, neither the first figure nor a later update fails. -/
def C100 (K : Type) [Field K] [LinearOrder K] [IsStrictOrderedRing K] [FloorRing K] : Prop :=
  ∀ (free : List (K × Fl K) → Fl K → Fl K) (e : Env K) (ld : LoadOut K) (s0 s : CoreSt K) (tr : List (CoreSt K × PassOut K × CoreSt K)),
    PartsLen e.parts → LoadSized ld → 0 < e.pp.MinOutletWidth → 2 ≤ ld.rows.length → initial e ld = .ok s0 → Run e s0 tr s →
    (∃ v, startPlot free e ld = .ok v ∧ Drawable v) ∧ ∀ x ∈ tr, ∃ v, passPlot free e x.2.1 = .ok v ∧ Drawable v

/-- C100 fails for every simulation that starts with a closed outlet: the first figure is drawn as if the outlet were open. -/
theorem C100_refuted_general {free : List (K × Fl K) → Fl K → Fl K} {e : Env K} {ld : LoadOut K} (hc : ld.Closed = true) (v : View K) :
    startPlot free e ld ≠ .ok v := by
  intro h
  unfold startPlot at h
  obtain ⟨c, h1, h⟩ := bind_ok.mp h
  unfold modelView at h
  obtain ⟨_, _, h⟩ := bind_ok.mp h
  obtain ⟨_, _, h⟩ := bind_ok.mp h
  obtain ⟨cl, cr, rl, rr, hatch, usL, usR, dsL, dsR, lb, rb, _, _, _, _, h5, _⟩ := open_inv h rfl
  unfold bankEnds at h5
  simp only [bind_ok, ixGet_ok] at h5
  obtain ⟨_, _, _, _, _, _, _, _, o, ho, _⟩ := h5
  change c.outlet[0]? = some o at ho
  rw [(assembled_outlet h1).2.2.1 hc] at ho
  simp at ho

/-- The loaded state with a closed outlet: the simulation starts and a first pass can be made, but with live plotting it fails
with an IndexError. -/
theorem C100_refuted : ¬ C100 ℚ := by
  intro h
  have h0 : okAnd (initial coEnv { coLoad with Closed := true }) (fun _ => true) = true := by decide +kernel
  obtain ⟨s0, h0, _⟩ := okAnd_iff.mp h0
  obtain ⟨v, hv, _⟩ := (h (fun _ _ => nan) coEnv { coLoad with Closed := true } s0 s0 [] coParts_len
    ⟨rfl, rfl, rfl, rfl, rfl, rfl, rfl, rfl⟩ (by decide +kernel) (by decide +kernel) h0 .start).1
  exact C100_refuted_general (e := coEnv) (ld := { coLoad with Closed := true }) rfl v hv

/-- The error is an IndexError. -/
theorem C100_refuted_index : startPlot (fun _ _ => nan) coEnv { coLoad with Closed := true } = .error .index := by
  have : (match startPlot (fun _ _ => nan) coEnv { coLoad with Closed := true } with | .error .index => true | _ => false) = true := by decide +kernel
  split at this
  · assumption
  · cases this

/-- C92 as stated also fails: with a closed outlet the interval of live plots decides whether the simulation gets under way. -/
theorem C92_refuted : ∃ (e : Env ℚ) (ld : LoadOut ℚ) (i j : ℤ) (s0 : CoreSt ℚ), initial { e with oo := { e.oo with PlotInt := i } } ld = .ok s0 ∧
    (∀ free, setUp free { e with oo := { e.oo with PlotInt := i } } ld = .ok s0) ∧
    ∀ free s, setUp free { e with oo := { e.oo with PlotInt := j } } ld ≠ .ok s := by
  have h0 : okAnd (initial { coEnv with oo := { coEnv.oo with PlotInt := 0 } } { coLoad with Closed := true }) (fun _ => true) = true := by decide +kernel
  obtain ⟨s0, h0, _⟩ := okAnd_iff.mp h0
  have hs : ∀ free, setUp free { coEnv with oo := { coEnv.oo with PlotInt := 0 } } { coLoad with Closed := true } = .ok s0 :=
    fun free => bind_ok.mpr ⟨s0, h0, by rw [if_neg (by decide)]; rfl⟩
  refine ⟨coEnv, { coLoad with Closed := true }, 0, 1, s0, h0, hs, ?_⟩
  intro free s h
  unfold setUp at h
  obtain ⟨_, _, h⟩ := bind_ok.mp h
  rw [if_pos (by decide)] at h
  obtain ⟨v, hv, _⟩ := bind_ok.mp h
  exact C100_refuted_general rfl v hv

theorem drawable {v : View K} (h : ViewOk v) : Drawable v := ⟨h.shore, h.dots, h.outlet, h.lagoon, h.cliff, h.river, h.water, h.hatch⟩

/-- C100, what holds: the first figure can be drawn if the outlet is open, and every update in the loop can be drawn provided
the lagoon at the river has finite banks (missing: a closed start). -/
theorem C100_partial (free : List (K × Fl K) → Fl K → Fl K) {e : Env K} {ld : LoadOut K} {s0 s : CoreSt K}
    {tr : List (CoreSt K × PassOut K × CoreSt K)} (hP : PartsLen e.parts) (hl : LoadSized ld) (hw : 0 < e.pp.MinOutletWidth)
    (h2 : 2 ≤ ld.rows.length) (h0 : initial e ld = .ok s0) (h : Run e s0 tr s) :
    (s0.Closed = false → ∃ v, startPlot free e ld = .ok v ∧ Drawable v) ∧
    ∀ x ∈ tr, (∀ r ∈ x.2.1.mor.rows, r.x = 0 → (∃ y, r.y3 = fin y) ∧ ∃ y, r.y4 = fin y) → ∃ v, passPlot free e x.2.1 = .ok v ∧ Drawable v := by
  constructor
  · intro hc
    unfold initial at h0
    simp only [bind_ok, pure_ok] at h0
    obtain ⟨fl, _, sl, _, w, _, c, hca, q, _, sq, _, ⟨dep, vel⟩, _, hyd, _, d, _, v, _, cw, _, rfl⟩ := h0
    obtain ⟨a1, a2, _, r, hr, hlt⟩ := assembled_outlet hca
    obtain ⟨v, hv, hd⟩ := view_total (free := free) (a := { startIn e ld c with Closed := false }) h2 (fun _ => ⟨a2 hc, a1, r, hr, hlt⟩)
    refine ⟨v, bind_ok.mpr ⟨c, hca, ?_⟩, drawable hd⟩
    have hne : (ld.rows.filter (fun r => !r.y3.isnan)).map (·.x) ≠ [] := by
      have : r ∈ ld.rows.filter (fun r => !r.y3.isnan) := by
        refine List.mem_filter.mpr ⟨hr, ?_⟩
        cases h3 : r.y3 with
        | nan => rw [h3] at hlt; simp at hlt
        | _ => rfl
      intro h0
      rw [List.map_eq_nil_iff] at h0
      rw [h0] at this
      cases this
    obtain ⟨u1, hu1, _⟩ := pyGet_zero hne
    obtain ⟨u2, hu2, _⟩ := pyGet_neg (k := 1) (by omega) (List.length_pos_iff.mpr hne)
    exact bind_ok.mpr ⟨u1, hu1, bind_ok.mpr ⟨u2, hu2, hv⟩⟩
  · intro x hx hfin
    obtain ⟨_, hp, tr', hr⟩ := h.trace_inv hx
    have hs := (run_sized hP hl h0 hr).1
    have hpo := (pass_sized hP hs hp).2.1
    obtain ⟨⟨fl, sl, hc⟩, _⟩ := pass_inv hp
    have hlen : x.2.1.mor.rows.length = ld.rows.length := by
      have := congrArg List.length hpo.rows
      simpa using this
    obtain ⟨v, hv, hd⟩ := view_total (free := free) (a := passIn e x.2.1)
      (by simpa only [passIn, hlen] using h2) (by
        intro hcl
        obtain ⟨a1, a2, _, _⟩ := assembled_outlet hc.chan
        refine ⟨a2 hcl, ?_, ?_⟩
        · intro i hi
          have := hpo.chan.obound i hi
          simp only [passIn, hlen]
          simpa using this
        · obtain ⟨_, i, r, hi, hx0, _, hg⟩ := C51_lagoon hc.mor
          have hm : r ∈ x.2.1.mor.rows := List.mem_of_getElem? hi
          obtain ⟨⟨y3, h3⟩, y4, h4⟩ := hfin r hm hx0
          refine ⟨r, hm, ?_⟩
          have := hg y3 y4 h3 h4
          rw [h3, h4]
          simp only [blt_fin, decide_eq_true_eq]
          linarith)
    exact ⟨v, hv, drawable hd⟩

/-- The example run starts open, and the banks of its lagoon stay finite. -/
example : ∃ s0 tr s, initial coEnv coLoad = .ok s0 ∧ Run coEnv s0 tr s ∧ tr.length = 1 ∧ s0.Closed = false ∧
    ∀ x ∈ tr, ∀ r ∈ x.2.1.mor.rows, r.x = 0 → (∃ y, r.y3 = fin y) ∧ ∃ y, r.y4 = fin y := by
  have h : okAnd (initial coEnv coLoad) (fun s0 => !s0.Closed && okAnd (trace coEnv s0 1) (fun t =>
      t.1.all (fun x => x.2.1.mor.rows.all (fun r => (match r.y3 with | fin _ => true | _ => false) && (match r.y4 with | fin _ => true | _ => false))))) = true := by
    decide +kernel
  obtain ⟨s0, h0, h⟩ := okAnd_iff.mp h
  simp only [Bool.and_eq_true, Bool.not_eq_true'] at h
  obtain ⟨⟨tr, s⟩, h1, h2⟩ := okAnd_iff.mp h.2
  refine ⟨s0, tr, s, h0, (trace_run h1).1, (trace_run h1).2, h.1, ?_⟩
  intro x hx r hr _
  have h3 := List.all_eq_true.mp (List.all_eq_true.mp h2 x hx) r hr
  simp only [Bool.and_eq_true] at h3
  constructor
  · cases h4 : r.y3 with
    | fin y => exact ⟨y, rfl⟩
    | _ => rw [h4] at h3; simp at h3
  · cases h4 : r.y4 with
    | fin y => exact ⟨y, rfl⟩
    | _ => rw [h4] at h3; simp at h3

/-! ## C101 -/

theorem lb_paired {free : List (K × Fl K) → Fl K → Fl K} {a : ViewIn K} {usL usR dsL dsR : Fl K} {l r : Line K}
    (h : banks free a usL usR dsL dsR = .ok (l, r)) : LineOk l ∧ LineOk r := by
  obtain ⟨l0, r0, v, h1, h2, e1, e2, e3, e4, _, _⟩ := banks_inv h
  unfold LineOk
  constructor
  · rw [e1, e3]
    obtain ⟨rs, _, ⟨_, _, _, _, _, _, _, _, hx, hy⟩ | ⟨_, _, _, _, _, _, _, _, hx, hy⟩⟩ := leftBank_inv h1
    · rw [hx, hy]; simp
    · rw [hx, hy]; simp
  · rw [e2, e4]
    obtain ⟨rs, _, ⟨_, _, _, _, _, _, _, _, hx, hy, _⟩ | ⟨_, _, _, _, _, _, _, _, hx, hy, _⟩⟩ := rightBank_inv h2
    · rw [hx, hy]; simp
    · rw [hx, hy]; simp

theorem cliff_paired {a : ViewIn K} {cl cr rl rr hatch : Line K} (h1 : cliffLeft a = .ok cl) (h2 : cliffRight a = .ok cr)
    (h3 : riverBanks a cl cr = .ok (rl, rr)) (h4 : cliffHatch cl cr rl rr = .ok hatch) :
    LineOk cl ∧ LineOk cr ∧ LineOk rl ∧ LineOk rr ∧ LineOk hatch := by
  unfold cliffLeft at h1
  unfold cliffRight at h2
  unfold riverBanks at h3
  unfold cliffHatch at h4
  simp only [bind_ok, pure_ok, Prod.mk.injEq] at h1 h2 h3 h4
  obtain ⟨_, _, rfl⟩ := h1
  obtain ⟨_, _, rfl⟩ := h2
  obtain ⟨_, _, _, _, rfl, rfl⟩ := h3
  obtain ⟨_, _, _, _, _, _, rfl⟩ := h4
  simp [LineOk]

theorem gap_paired {a b : Line K} (h1 : LineOk a) (h2 : LineOk b) : Paired (gap a b) := by
  unfold LineOk at h1 h2
  simp [Paired, gap, h1, h2]

/-- C101: every line and polygon of a view has as many X as Y coordinates. -/
theorem C101_sizes {free : List (K × Fl K) → Fl K → Fl K} {a : ViewIn K} {v : View K} (h : updateModelView free a = .ok v) : Drawable v := by
  cases hc : a.Closed with
  | false =>
    obtain ⟨cl, cr, rl, rr, hatch, usL, usR, dsL, dsR, lb, rb, h1, h2, h3, h4, h5, h6, h7⟩ := open_inv h hc
    obtain ⟨c1, c2, c3, c4, c5⟩ := cliff_paired h1 h2 h3 h4
    obtain ⟨c6, c7⟩ := lb_paired h6
    obtain ⟨xl, yl, xr, yr, xl0, yl0, xr0, yr0, _, _, _, _, _, _, _, _, s1, s2, s3, s4, s5, s6, s7, s8, s9, s10⟩ := openView_inv h7
    refine ⟨?_, ?_, ?_, ?_, ?_, ?_, ?_, ?_⟩
    · unfold Paired; rw [s1, s2]; simp [colLine]
    · unfold Paired; rw [s5]; simp [colLine]
    · rw [s6]; exact gap_paired c6 c7
    · unfold Paired; rw [s3, s4]; simp [colLine]
    · rw [s7]; exact gap_paired c1 c2
    · rw [s8]; exact gap_paired c3 c4
    · unfold Paired; unfold LineOk at *; omega
    · rw [s9]; exact c5
  | true =>
    obtain ⟨cl, cr, rl, rr, hatch, h1, h2, h3, h4, h5⟩ := closed_inv h hc
    obtain ⟨c1, c2, c3, c4, c5⟩ := cliff_paired h1 h2 h3 h4
    unfold closedView at h5
    simp only [bind_ok, pure_ok] at h5
    obtain ⟨_, _, _, _, rfl⟩ := h5
    have c1' := c1
    have c2' := c2
    have c3' := c3
    have c4' := c4
    unfold LineOk at c1' c2' c3' c4'
    refine ⟨?_, rfl, rfl, ?_, gap_paired c1 c2, gap_paired c3 c4, ?_, c5⟩
    · simp [Paired]
    · simp [Paired]
    · simp [Paired, c1', c2', c3', c4']

theorem zip_last {a b : List (Fl K)} {x y : Fl K} (h : a.length = b.length) (hx : a.getLast? = some x) (hy : b.getLast? = some y) :
    (a.zip b).getLast? = some (x, y) := by
  rw [List.getLast?_eq_getElem?] at *
  rw [List.getElem?_zip_eq_some, List.length_zip, ← h]
  rw [← h] at hy
  simpa using ⟨hx, hy⟩

theorem zip_first {a b : List (Fl K)} {x y : Fl K} (hx : a[0]? = some x) (hy : b[0]? = some y) : (a.zip b).head? = some (x, y) := by
  rw [List.head?_eq_getElem?, List.getElem?_zip_eq_some]
  exact ⟨hx, hy⟩

/-- C101: the lines of the view of an open outlet meet.  The outlet is drawn as a left and a right bank; the shoreline and the
lagoon line consist of a part to the left and a part to the right of it.  Each bank starts at the end of the lagoon line on
its side and ends at the end of the shoreline on its side. -/
theorem C101_connected {free : List (K × Fl K) → Fl K → Fl K} {a : ViewIn K} {v : View K} (h : updateModelView free a = .ok v) (hc : a.Closed = false) :
    ∃ lb rb shL shR lagL lagR : Line K, TwoParts v.outlet lb rb ∧ TwoParts v.shore shL shR ∧ TwoParts v.lagoon lagL lagR ∧
      EndMeetsStart lagL lb ∧ StartsMeet lagR rb ∧ EndsMeet shL lb ∧ EndMeetsStart rb shR := by
  obtain ⟨cl, cr, rl, rr, hatch, usL, usR, dsL, dsR, lb, rb, h1, h2, h3, h4, h5, h6, h7⟩ := open_inv h hc
  obtain ⟨c6, c7⟩ := lb_paired h6
  obtain ⟨xl, yl, xr, yr, xl0, yl0, xr0, yr0, e1, e2, e3, e4, e5, e6, e7, e8, s1, s2, s3, s4, s5, s6, s7, s8, s9, s10⟩ := openView_inv h7
  refine ⟨lb, rb, ⟨_, _⟩, ⟨_, _⟩, ⟨_, _⟩, ⟨_, _⟩, ⟨c6, c7, by rw [s6]; simp [gap], by rw [s6]; simp [gap]⟩, ⟨?_, ?_, s1, s2⟩, ⟨?_, ?_, s3, s4⟩,
    ⟨(xl0, yl0), ?_, zip_first e5 e6⟩, ⟨(xr0, yr0), ?_, zip_first e7 e8⟩, ⟨(xl, yl), ?_, zip_last c6 e1 e2⟩, ⟨(xr, yr), zip_last c7 e3 e4, ?_⟩⟩
  · simp [Paired, colLine]
  · simp [Paired, colLine]
  · simp [Paired, colLine]
  · simp [Paired, colLine]
  · exact zip_last (by simp [colLine]) (by simp) (by simp)
  · exact zip_first rfl rfl
  · exact zip_last (by simp [colLine]) (by simp) (by simp)
  · exact zip_first rfl rfl

/-- The view of the loaded state, with an open and with a closed outlet. -/
def coView (c : Bool) : ViewIn ℚ :=
  { rows := coLoad.rows, EndX0 := fin 15, EndX1 := fin 24, EndWidth := fin 6, outlet := [6], Closed := c, RiverWidth := 12, SpitWidth := 2 }

example : (∃ v, updateModelView (fun _ _ => nan) (coView false) = .ok v) ∧ ∃ v, updateModelView (fun _ _ => nan) (coView true) = .ok v := by
  have h1 : okAnd (updateModelView (fun _ _ => nan) (coView false)) (fun _ => true) = true := by decide +kernel
  have h2 : okAnd (updateModelView (fun _ _ => nan) (coView true)) (fun _ => true) = true := by decide +kernel
  obtain ⟨v, h1, _⟩ := okAnd_iff.mp h1
  obtain ⟨w, h2, _⟩ := okAnd_iff.mp h2
  exact ⟨⟨v, h1⟩, w, h2⟩

/-! ## C102 -/

/-- Claim C102 in full: both banks follow the channel. -/
def C102 (K : Type) [Field K] [LinearOrder K] [IsStrictOrderedRing K] : Prop :=
  ∀ (free : List (K × Fl K) → Fl K → Fl K) (a : ViewIn K) (v : View K) (rs : List (Transect K)), updateModelView free a = .ok v → a.Closed = false →
    gather a.rows a.outlet = .ok rs → ∃ lb rb, TwoParts v.outlet lb rb ∧ LeftFollows rs lb ∧ RightFollows rs rb

theorem mem_pts {l : Line K} {i : ℕ} {x y : Fl K} (hx : l.x[i]? = some x) (hy : l.y[i]? = some y) : (x, y) ∈ pts l :=
  List.mem_of_getElem? (List.getElem?_zip_eq_some.mpr ⟨hx, hy⟩)

theorem mid_get {a b : Fl K} {X : List (Transect K)} {f : Transect K → Fl K} {t : List (Fl K)} {k : ℕ} {r : Transect K} (h : X[k]? = some r) :
    ([a, b] ++ X.map f ++ t)[k + 2]? = some (f r) := by
  have hk : k < X.length := (List.getElem?_eq_some_iff.mp h).1
  rw [List.append_assoc, List.getElem?_append_right (by simp)]
  simp only [List.length_cons, List.length_nil, Nat.zero_add, Nat.reduceAdd, Nat.add_sub_cancel]
  rw [List.getElem?_append_left (by simpa using hk), List.getElem?_map, h]
  rfl

theorem mem_dropLast {rs : List (Transect K)} {p : Transect K → Bool} {k k' : ℕ} {r r' : Transect K} (hk : k < k') (h : rs[k]? = some r) (hp : p r = true)
    (h' : rs[k']? = some r') (hp' : p r' = true) : r ∈ (rs.filter p).dropLast := by
  have e : rs = rs.take (k + 1) ++ rs.drop (k + 1) := (List.take_append_drop _ _).symm
  have hr : r ∈ (rs.take (k + 1)).filter p := by
    refine List.mem_filter.mpr ⟨?_, hp⟩
    apply List.mem_of_getElem? (i := k)
    rw [List.getElem?_take_of_lt (by omega)]
    exact h
  have hr' : r' ∈ (rs.drop (k + 1)).filter p := by
    refine List.mem_filter.mpr ⟨?_, hp'⟩
    apply List.mem_of_getElem? (i := k' - (k + 1))
    rw [List.getElem?_drop, show k + 1 + (k' - (k + 1)) = k' by omega]
    exact h'
  rw [e, List.filter_append, List.dropLast_append_of_ne_nil (List.ne_nil_of_mem hr')]
  exact List.mem_append_left _ hr

theorem dropLast_get {X : List (Transect K)} {r : Transect K} (h : r ∈ X.dropLast) : ∃ k, k + 1 < X.length ∧ X[k]? = some r := by
  obtain ⟨k, hk⟩ := List.mem_iff_getElem?.mp h
  have hl := (List.getElem?_eq_some_iff.mp hk).1
  rw [List.length_dropLast] at hl
  refine ⟨k, by omega, ?_⟩
  rw [List.getElem?_dropLast, if_pos (by omega)] at hk
  exact hk

theorem left_ends {free : List (K × Fl K) → Fl K → Fl K} {a : ViewIn K} {us ds : Fl K} {l : Line K} (h : leftBank free a us ds = .ok l) :
    l.x.head? = some us ∧ l.x.getLast? = some ds := by
  obtain ⟨rs, _, ⟨_, _, _, _, _, _, _, _, hx, hy⟩ | ⟨_, _, _, _, _, _, _, _, hx, hy⟩⟩ := leftBank_inv h
  · rw [hx]; exact ⟨rfl, by rw [List.getLast?_append]; rfl⟩
  · rw [hx]; exact ⟨rfl, by rw [List.getLast?_append]; rfl⟩

theorem right_ends {free : List (K × Fl K) → Fl K → Fl K} {a : ViewIn K} {us ds : Fl K} {l : Line K} {v : Option (Fl K)}
    (h : rightBank free a us ds = .ok (l, v)) : l.x.head? = some us ∧ l.x.getLast? = some ds := by
  obtain ⟨rs, _, ⟨_, _, _, _, _, _, _, _, hx, hy, _⟩ | ⟨_, _, _, _, _, _, _, _, hx, hy, _⟩⟩ := rightBank_inv h
  · rw [hx]; exact ⟨rfl, by rw [List.getLast?_append]; rfl⟩
  · rw [hx]; exact ⟨rfl, by rw [List.getLast?_append]; rfl⟩

theorem right_follows {free : List (K × Fl K) → Fl K → Fl K} {a : ViewIn K} {usL usR dsL dsR : Fl K} {l r : Line K}
    (h : banks free a usL usR dsL dsR = .ok (l, r)) {rs : List (Transect K)} (hrs : gather a.rows a.outlet = .ok rs) : RightFollows rs r := by
  obtain ⟨l0, r0, v, _, h2, _, e2, _, e4, _, k2⟩ := banks_inv h
  obtain ⟨ea, eb⟩ := right_ends h2
  intro us ds hus hds q hq
  rw [e2] at hus hds
  rw [ea] at hus
  rw [eb] at hds
  cases hus
  cases hds
  obtain ⟨rs', hrs', hh⟩ := rightBank_inv h2
  rw [hrs] at hrs'
  cases hrs'
  rcases hh with ⟨hd, ya, yb, yc, yd, ye, _, _, hx, hy, _⟩ | ⟨hd, q0, ya, yb, yc, _, _, _, hx, hy, _⟩
  · refine ⟨fun _ hlt => ?_, fun hd' => by rw [hd] at hd'; cases hd'⟩
    obtain ⟨k, hk⟩ := List.mem_iff_getElem?.mp ((List.mem_filter (p := fun r : Transect K => usR <? fin r.x)).mpr ⟨hq, hlt⟩)
    have hkl := (List.getElem?_eq_some_iff.mp hk).1
    refine mem_pts (i := k + 2) ?_ ?_
    · rw [e2, hx]; exact mid_get hk
    · rw [k2 _ (by omega) (by rw [hy]; simp only [List.length_append, List.length_map, List.length_cons, List.length_nil]; omega), hy]
      exact mid_get hk
  · refine ⟨(fun hd' => by rw [hd] at hd'; cases hd'), fun _ hlt => ?_⟩
    obtain ⟨k, hk⟩ := List.mem_iff_getElem?.mp ((List.mem_filter (p := fun r : Transect K => dsR <? fin r.x)).mpr ⟨hq, hlt⟩)
    have hkl := (List.getElem?_eq_some_iff.mp hk).1
    refine mem_pts (i := k + 2) ?_ ?_
    · rw [e2, hx]; exact mid_get hk
    · rw [k2 _ (by omega) (by rw [hy]; simp only [List.length_append, List.length_map, List.length_cons, List.length_nil]; omega), hy]
      exact mid_get hk

theorem left_follows {free : List (K × Fl K) → Fl K → Fl K} {a : ViewIn K} {usL usR dsL dsR : Fl K} {l r : Line K}
    (h : banks free a usL usR dsL dsR = .ok (l, r)) {rs : List (Transect K)} (hrs : gather a.rows a.outlet = .ok rs) :
    (((usL <? dsL) = false ∨ (usR <? dsR) = false) → LeftFollows rs l) ∧
    ((usL <? dsL) = true → ∀ (k k' : ℕ) q q', k < k' → rs[k]? = some q → rs[k']? = some q' → (fin q.x <? dsL) = true → (fin q'.x <? dsL) = true →
      (fin q.x, q.y1) ∈ pts l) := by
  obtain ⟨l0, r0, v, h1, h2, e1, _, e3, _, k1, _⟩ := banks_inv h
  obtain ⟨ea, eb⟩ := left_ends h1
  obtain ⟨rs', hrs', hh⟩ := leftBank_inv h1
  rw [hrs] at hrs'
  cases hrs'
  obtain ⟨rs', hrs', hv⟩ := rightBank_inv h2
  rw [hrs] at hrs'
  cases hrs'
  constructor
  · intro hor us ds hus hds q hq
    rw [e1] at hus hds
    rw [ea] at hus
    rw [eb] at hds
    cases hus
    cases hds
    rcases hh with ⟨hd, q0, ya, yb, yc, _, _, _, hx, hy⟩ | ⟨hd, ya, yb, yc, yd, ye, _, _, hx, hy⟩
    · have hvn : v = none := by
        rcases hv with ⟨hc, _⟩ | ⟨_, _, _, _, _, _, _, _, _, _, hv⟩
        · rcases hor with ho | ho
          · rw [hd] at ho; cases ho
          · rw [hc] at ho; cases ho
        · exact hv
      subst hvn
      refine ⟨fun _ hlt => ?_, fun hd' => by rw [hd] at hd'; cases hd'⟩
      obtain ⟨k, hk⟩ := List.mem_iff_getElem?.mp ((List.mem_filter (p := fun r : Transect K => fin r.x <? dsL)).mpr ⟨hq, hlt⟩)
      have hkl := (List.getElem?_eq_some_iff.mp hk).1
      refine mem_pts (i := k + 2) ?_ ?_
      · rw [e1, hx]; exact mid_get hk
      · rw [k1 _ (by omega) (by rw [hy]; simp only [List.length_append, List.length_map, List.length_cons, List.length_nil]; omega)]
        simp only
        rw [hy]
        exact mid_get hk
    · refine ⟨(fun hd' => by rw [hd] at hd'; cases hd'), fun _ hlt => ?_⟩
      obtain ⟨k, hk⟩ := List.mem_iff_getElem?.mp ((List.mem_filter (p := fun r : Transect K => fin r.x <? usL)).mpr ⟨hq, hlt⟩)
      have hkl := (List.getElem?_eq_some_iff.mp hk).1
      refine mem_pts (i := k + 2) ?_ ?_
      · rw [e1, hx]; exact mid_get hk
      · rw [k1 _ (by omega) (by rw [hy]; simp only [List.length_append, List.length_map, List.length_cons, List.length_nil]; omega)]
        cases v with
        | none => simp only; rw [hy]; exact mid_get hk
        | some v =>
          simp only
          unfold setBack
          rw [List.getElem?_set_ne (by rw [hy]; simp only [List.length_append, List.length_map, List.length_cons, List.length_nil]; omega), hy]
          exact mid_get hk
  · intro hd k k' q q' hkk hk hk' hp hp'
    rcases hh with ⟨_, q0, ya, yb, yc, _, _, _, hx, hy⟩ | ⟨hd', _⟩
    · obtain ⟨j, hj, hjk⟩ := dropLast_get (mem_dropLast (p := fun r : Transect K => fin r.x <? dsL) hkk hk hp hk' hp')
      refine mem_pts (i := j + 2) ?_ ?_
      · rw [e1, hx]; exact mid_get hjk
      · rw [k1 _ (by omega) (by rw [hy]; simp only [List.length_append, List.length_map, List.length_cons, List.length_nil]; omega)]
        cases v with
        | none => simp only; rw [hy]; exact mid_get hjk
        | some v =>
          simp only
          unfold setBack
          rw [List.getElem?_set_ne (by rw [hy]; simp only [List.length_append, List.length_map, List.length_cons, List.length_nil]; omega), hy]
          exact mid_get hjk
    · rw [hd] at hd'; cases hd'

/-- C102, what holds: the right bank follows the channel; so does the left bank if one of the banks runs from right to left.  If both
run from left to right, the left bank passes through all crossed transects but the last (missing: that one). -/
theorem C102_partial {free : List (K × Fl K) → Fl K → Fl K} {a : ViewIn K} {v : View K} {rs : List (Transect K)} (h : updateModelView free a = .ok v)
    (hc : a.Closed = false) (hrs : gather a.rows a.outlet = .ok rs) :
    ∃ lb rb usL dsL usR dsR, TwoParts v.outlet lb rb ∧ RightFollows rs rb ∧
      lb.x.head? = some usL ∧ lb.x.getLast? = some dsL ∧ rb.x.head? = some usR ∧ rb.x.getLast? = some dsR ∧
      (((usL <? dsL) = false ∨ (usR <? dsR) = false) → LeftFollows rs lb) ∧
      ((usL <? dsL) = true → ∀ (k k' : ℕ) q q', k < k' → rs[k]? = some q → rs[k']? = some q' → (fin q.x <? dsL) = true → (fin q'.x <? dsL) = true →
        (fin q.x, q.y1) ∈ pts lb) := by
  obtain ⟨cl, cr, rl, rr, hatch, usL, usR, dsL, dsR, lb, rb, h1, h2, h3, h4, h5, h6, h7⟩ := open_inv h hc
  obtain ⟨c6, c7⟩ := lb_paired h6
  obtain ⟨xl, yl, xr, yr, xl0, yl0, xr0, yr0, _, _, _, _, _, _, _, _, _, _, _, _, _, s6, _⟩ := openView_inv h7
  obtain ⟨l0, r0, v, b1, b2, e1, e2, _⟩ := banks_inv h6
  obtain ⟨ea, eb⟩ := left_ends b1
  obtain ⟨ec, ed⟩ := right_ends b2
  rw [← e1] at ea eb
  rw [← e2] at ec ed
  exact ⟨lb, rb, usL, dsL, usR, dsR, ⟨c6, c7, by rw [s6]; simp [gap], by rw [s6]; simp [gap]⟩, right_follows h6 hrs, ea, eb, ec, ed, left_follows h6 hrs⟩

/-- C102 fails for every outlet from left to right: at the last crossed transect (before its end) the left bank is drawn at a Y taken
from the seaward end of the right bank. -/
theorem C102_refuted_general {free : List (K × Fl K) → Fl K → Fl K} {a : ViewIn K} {v : View K} {rs : List (Transect K)} (h : updateModelView free a = .ok v)
    (hc : a.Closed = false) (hrs : gather a.rows a.outlet = .ok rs) :
    ∃ lb rb usL dsL usR dsR, TwoParts v.outlet lb rb ∧ lb.x.head? = some usL ∧ lb.x.getLast? = some dsL ∧ rb.x.head? = some usR ∧ rb.x.getLast? = some dsR ∧
      ((usL <? dsL) = true → (usR <? dsR) = true → ∀ q, (rs.filter (fun r => fin r.x <? dsL)).getLast? = some q →
        ∃ c d, rb.y.getLast? = some d ∧ rb.y[rb.y.length - 3]? = some c ∧ lb.x[lb.x.length - 3]? = some (fin q.x) ∧ lb.y[lb.x.length - 3]? = some (npmin d c)) := by
  obtain ⟨cl, cr, rl, rr, hatch, usL, usR, dsL, dsR, lb, rb, h1, h2, h3, h4, h5, h6, h7⟩ := open_inv h hc
  obtain ⟨c6, c7⟩ := lb_paired h6
  obtain ⟨xl, yl, xr, yr, xl0, yl0, xr0, yr0, _, _, _, _, _, _, _, _, _, _, _, _, _, s6, _⟩ := openView_inv h7
  obtain ⟨l0, r0, v, b1, b2, e1, e2, e3, e4, k1, k2⟩ := banks_inv h6
  obtain ⟨ea, eb⟩ := left_ends b1
  obtain ⟨ec, ed⟩ := right_ends b2
  rw [← e1] at ea eb
  rw [← e2] at ec ed
  refine ⟨lb, rb, usL, dsL, usR, dsR, ⟨c6, c7, by rw [s6]; simp [gap], by rw [s6]; simp [gap]⟩, ea, eb, ec, ed, ?_⟩
  intro hL hR q hq
  obtain ⟨rs', hrs', hh⟩ := leftBank_inv b1
  rw [hrs] at hrs'
  cases hrs'
  obtain ⟨rs', hrs', hv⟩ := rightBank_inv b2
  rw [hrs] at hrs'
  cases hrs'
  rcases hh with ⟨_, q0, ya, yb, yc, _, _, _, hx, hy⟩ | ⟨hd', _⟩
  · rcases hv with ⟨_, za, zb, zc, zd, ze, _, _, gx, gy, rfl⟩ | ⟨hd', _⟩
    · have hpos : 0 < (rs.filter (fun r => fin r.x <? dsL)).length := by
        apply List.length_pos_iff.mpr
        intro h0
        rw [h0] at hq
        cases hq
      have hly : l0.y.length = (rs.filter (fun r => fin r.x <? dsL)).length + 4 := by
        rw [hy]; simp only [List.length_append, List.length_map, List.length_cons, List.length_nil]; omega
      have hlx : l0.x.length = (rs.filter (fun r => fin r.x <? dsL)).length + 4 := by
        rw [hx]; simp only [List.length_append, List.length_map, List.length_cons, List.length_nil]; omega
      have hry : r0.y.length = (rs.filter (fun r => usR <? fin r.x)).length + 5 := by
        rw [gy]; simp only [List.length_append, List.length_map, List.length_cons, List.length_nil]; omega
      refine ⟨zc, ze, ?_, ?_, ?_, ?_⟩
      · rw [List.getLast?_eq_getElem?, e4, k2 _ (by omega) (by omega), ← List.getLast?_eq_getElem?, gy, List.getLast?_append]
        rfl
      · rw [e4, k2 _ (by omega) (by omega), hry, gy, List.getElem?_append_right (by simp)]
        simp only [List.length_append, List.length_map, List.length_cons, List.length_nil]
        rw [show (rs.filter (fun r => usR <? fin r.x)).length + 5 - 3 - (0 + 1 + 1 + (rs.filter (fun r => usR <? fin r.x)).length) = 0 by omega]
        rfl
      · rw [e1, hlx, show (rs.filter (fun r => fin r.x <? dsL)).length + 4 - 3 = (rs.filter (fun r => fin r.x <? dsL)).length - 1 + 2 by omega, hx]
        exact mid_get (f := fun r => fin r.x) (by rw [← List.getLast?_eq_getElem?]; exact hq)
      · rw [e1, hlx, k1 _ (by omega) (by omega)]
        simp only
        unfold setBack
        rw [hly, show (rs.filter (fun r => fin r.x <? dsL)).length + 4 - 3 = (rs.filter (fun r => fin r.x <? dsL)).length + 1 by omega, List.getElem?_set_self (by omega)]
    · rw [hR] at hd'; cases hd'
  · rw [hL] at hd'; cases hd'

theorem split_unique {α : Type} {n : α} : ∀ {a b a' b' : List α}, a ++ n :: b = a' ++ n :: b' → n ∉ a' → n ∉ b' → a = a' ∧ b = b' := by
  intro a
  induction a with
  | nil =>
    intro b a' b' h h1 h2
    cases a' with
    | nil => simpa using h
    | cons x a' => simp at h; exact absurd (h.1 ▸ List.mem_cons_self) h1
  | cons x a ih =>
    intro b a' b' h h1 h2
    cases a' with
    | nil => simp at h; exact absurd (h.2 ▸ List.mem_append_right _ List.mem_cons_self) h2
    | cons y a' =>
      simp only [List.cons_append, List.cons.injEq] at h
      obtain ⟨e1, e2⟩ := ih h.2 (fun hm => h1 (List.mem_cons_of_mem _ hm)) h2
      exact ⟨by rw [h.1, e1], e2⟩

theorem parts_unique {l a b a' b' : Line K} (h : TwoParts l a b) (h' : TwoParts l a' b') (h1 : nan ∉ a'.x) (h2 : nan ∉ b'.x) : a = a' ∧ b = b' := by
  obtain ⟨p1, p2, p3, p4⟩ := h
  obtain ⟨q1, q2, q3, q4⟩ := h'
  obtain ⟨e1, e2⟩ := split_unique (p3.symm.trans q3) h1 h2
  have hl : a.y.length = a'.y.length := by
    unfold Paired at p1 q1
    rw [← p1, ← q1, e1]
  obtain ⟨e3, e4⟩ := List.append_inj (p4.symm.trans q4) hl
  simp only [List.cons.injEq, true_and] at e4
  constructor
  · cases a; cases a'; simp_all
  · cases b; cases b'; simp_all

/-- A view of an outlet from X = 5 to X = 28 across the transects at 10 and 20. -/
def coLong : ViewIn ℚ :=
  { rows := coLoad.rows.modify 5 (fun r => { r with y1 := fin 58, y2 := fin 52 }), EndX0 := fin 5, EndX1 := fin 28, EndWidth := fin 6, outlet := [5, 6]
    Closed := false, RiverWidth := 12, SpitWidth := 2 }

/-- The banks of that view. -/
def coLongL : Line ℚ := { x := [2, 2, 10, 20, 25, 25].map fin, y := [20, 58, 58, 92, 60, 100].map fin }
def coLongR : Line ℚ := { x := [8, 8, 10, 20, 28, 31, 31].map fin, y := [20, 52, 52, 55, 92, 95, 100].map fin }

theorem coLong_outlet : ∃ v, updateModelView (fun _ _ => nan) coLong = .ok v ∧ v.outlet = gap coLongL coLongR := by
  have h : okAnd (updateModelView (fun _ _ => nan) coLong) (fun v => decide (v.outlet = gap coLongL coLongR)) = true := by decide +kernel
  obtain ⟨v, h1, h2⟩ := okAnd_iff.mp h
  exact ⟨v, h1, of_decide_eq_true h2⟩

/-- C102 refuted: at the transect at X = 20, with the channel from 55 to 60, the left bank is drawn at Y = 92. -/
theorem C102_refuted : ¬ C102 ℚ := by
  intro h
  obtain ⟨v, h1, h2⟩ := coLong_outlet
  have hg : okAnd (gather coLong.rows coLong.outlet) (fun rs => decide ({ brRow 20 with y1 := fin 60, y2 := fin 55, z1 := fin 0, z2 := fin 3 } ∈ rs)) = true := by decide +kernel
  obtain ⟨rs, hrs, hm⟩ := okAnd_iff.mp hg
  obtain ⟨lb, rb, ht, hl, _⟩ := h _ _ v rs h1 rfl hrs
  have hu : TwoParts v.outlet coLongL coLongR := ⟨rfl, rfl, by rw [h2]; simp [gap], by rw [h2]; simp [gap]⟩
  obtain ⟨rfl, rfl⟩ := parts_unique ht hu (by decide +kernel) (by decide +kernel)
  have := (hl (fin 2) (fin 25) rfl rfl _ (of_decide_eq_true hm)).1 (by decide +kernel) (by decide +kernel)
  revert this
  decide +kernel

/-! ## C103 -/

/-- Claim C103 in full: the vertices of the hatched area landward of the cliff are on the cliff line or far landward of it. -/
def C103 (K : Type) [Field K] [LinearOrder K] [IsStrictOrderedRing K] : Prop :=
  ∀ (free : List (K × Fl K) → Fl K → Fl K) (a : ViewIn K) (v : View K), updateModelView free a = .ok v →
    ∀ p ∈ pts v.hatch, p = (nan, nan) ∨ p.2 = fin (-5000) ∨ p ∈ pts v.cliff

theorem hatch_parts {free : List (K × Fl K) → Fl K → Fl K} {a : ViewIn K} {v : View K} (h : updateModelView free a = .ok v) :
    ∃ cl cr rl rr, cliffLeft a = .ok cl ∧ cliffRight a = .ok cr ∧ riverBanks a cl cr = .ok (rl, rr) ∧ cliffHatch cl cr rl rr = .ok v.hatch ∧
      v.cliff = gap cl cr := by
  cases hc : a.Closed with
  | false =>
    obtain ⟨cl, cr, rl, rr, hatch, usL, usR, dsL, dsR, lb, rb, h1, h2, h3, h4, h5, h6, h7⟩ := open_inv h hc
    obtain ⟨xl, yl, xr, yr, xl0, yl0, xr0, yr0, _, _, _, _, _, _, _, _, s1, s2, s3, s4, s5, s6, s7, s8, s9, s10⟩ := openView_inv h7
    exact ⟨cl, cr, rl, rr, h1, h2, h3, by rw [s9]; exact h4, s7⟩
  | true =>
    obtain ⟨cl, cr, rl, rr, hatch, h1, h2, h3, h4, h5⟩ := closed_inv h hc
    unfold closedView at h5
    simp only [bind_ok, pure_ok] at h5
    obtain ⟨_, _, _, _, rfl⟩ := h5
    exact ⟨cl, cr, rl, rr, h1, h2, h3, h4, rfl⟩

theorem pts_append {a b : Line K} (h : LineOk a) : pts { x := a.x ++ b.x, y := a.y ++ b.y : Line K } = pts a ++ pts b := by
  unfold pts
  exact List.zip_append h

theorem pts_gap {a b : Line K} (h : LineOk a) : pts (gap a b) = pts a ++ (nan, nan) :: pts b := by
  unfold pts gap
  simp only
  rw [List.append_assoc, List.append_assoc, List.zip_append h]
  rfl

/-- The vertices of the hatched area: cliff, river bank and edge of the domain left, then right. -/
theorem hatch_pts {a : ViewIn K} {cl cr rl rr ht : Line K} (h1 : cliffLeft a = .ok cl) (h2 : cliffRight a = .ok cr)
    (h3 : riverBanks a cl cr = .ok (rl, rr)) (h4 : cliffHatch cl cr rl rr = .ok ht) :
    ∃ xl yl xr yL yR, (pts cl)[0]? = some (xl, yl) ∧ (pts cl).getLast? = some (fin (-a.RiverWidth / 2), yL) ∧
      (pts cr)[0]? = some (fin (a.RiverWidth / 2), yR) ∧ cr.x.getLast? = some xr ∧
      pts ht = pts cl ++ [(fin (-a.RiverWidth / 2), yL), (fin (-a.RiverWidth / 2), fin (-5000)), (xl, fin (-5000)), (xl, yl), (nan, nan),
        (xr, xr), (xr, fin (-5000)), (fin (a.RiverWidth / 2), fin (-5000)), (fin (a.RiverWidth / 2), yR)] ++ pts cr := by
  obtain ⟨o1, o2, _⟩ := cliff_paired h1 h2 h3 h4
  have f1 : cl.x.getLast? = some (fin (-a.RiverWidth / 2)) := by
    unfold cliffLeft at h1
    simp only [bind_ok, pure_ok] at h1
    obtain ⟨y1, _, rfl⟩ := h1
    simp
  have f2 : cr.x[0]? = some (fin (a.RiverWidth / 2)) := by
    unfold cliffRight at h2
    simp only [bind_ok, pure_ok] at h2
    obtain ⟨y2, _, rfl⟩ := h2
    rfl
  unfold riverBanks at h3
  unfold cliffHatch at h4
  simp only [bind_ok, pure_ok, Prod.mk.injEq, pyGet_last, pyGet_zero_ok] at h3 h4
  obtain ⟨yL, e1, yR, e2, rfl, rfl⟩ := h3
  obtain ⟨xl, e3, yl, e4, xr, e5, rfl⟩ := h4
  refine ⟨xl, yl, xr, yL, yR, List.getElem?_zip_eq_some.mpr ⟨e3, e4⟩, zip_last o1 f1 e1, List.getElem?_zip_eq_some.mpr ⟨f2, e2⟩, e5, ?_⟩
  unfold pts
  simp only [List.append_assoc]
  rw [List.zip_append o1]
  rfl

/-- C103, what holds: all vertices but one at the right edge of the domain, for which the X coordinate is used as Y as well. -/
theorem C103_partial {free : List (K × Fl K) → Fl K → Fl K} {a : ViewIn K} {v : View K} (h : updateModelView free a = .ok v) :
    ∃ xr, v.cliff.x.getLast? = some xr ∧ (xr, xr) ∈ pts v.hatch ∧
      ∀ p ∈ pts v.hatch, p = (nan, nan) ∨ p.2 = fin (-5000) ∨ p ∈ pts v.cliff ∨ p = (xr, xr) := by
  obtain ⟨cl, cr, rl, rr, h1, h2, h3, h4, hcl⟩ := hatch_parts h
  obtain ⟨o1, o2, _⟩ := cliff_paired h1 h2 h3 h4
  obtain ⟨xl, yl, xr, yL, yR, e1, e2, e3, e4, e5⟩ := hatch_pts h1 h2 h3 h4
  refine ⟨xr, ?_, ?_, ?_⟩
  · rw [hcl]
    unfold gap
    rw [List.getLast?_append, e4]
    rfl
  · rw [e5]; simp
  · have hL : ∀ p, p ∈ pts cl → p ∈ pts v.cliff := fun p hp => by rw [hcl, pts_gap o1]; exact List.mem_append_left _ hp
    have hR : ∀ p, p ∈ pts cr → p ∈ pts v.cliff := fun p hp => by rw [hcl, pts_gap o1]; exact List.mem_append_right _ (List.mem_cons_of_mem _ hp)
    intro p hp
    rw [e5] at hp
    simp only [List.mem_append, List.mem_cons, List.not_mem_nil, or_false] at hp
    rcases hp with (hp | rfl | rfl | rfl | rfl | rfl | rfl | rfl | rfl | rfl) | hp
    · exact .inr (.inr (.inl (hL _ hp)))
    · exact .inr (.inr (.inl (hL _ (List.mem_of_getLast? e2))))
    · exact .inr (.inl rfl)
    · exact .inr (.inl rfl)
    · exact .inr (.inr (.inl (hL _ (List.mem_of_getElem? e1))))
    · exact .inl rfl
    · exact .inr (.inr (.inr rfl))
    · exact .inr (.inl rfl)
    · exact .inr (.inl rfl)
    · exact .inr (.inr (.inl (hR _ (List.mem_of_getElem? e3))))
    · exact .inr (.inr (.inl (hR _ hp)))

/-- C103 fails whenever the cliff at the right edge of the domain is not, by coincidence, where its X coordinate would put it: with
increasing positions, the vertex there is neither on the cliff nor far landward. -/
theorem C103_refuted_general {free : List (K × Fl K) → Fl K → Fl K} {a : ViewIn K} {v : View K} (h : updateModelView free a = .ok v)
    (hinc : (a.rows.map (·.x)).Pairwise (· < ·)) {g : Transect K} (hg : a.rows.getLast? = some g) (hw : 0 < a.RiverWidth) (hgx : a.RiverWidth / 2 < g.x)
    (hy : g.y4 ≠ fin g.x) : ¬ ∀ p ∈ pts v.hatch, p = (nan, nan) ∨ p.2 = fin (-5000) ∨ p ∈ pts v.cliff := by
  intro hall
  obtain ⟨cl, cr, rl, rr, h1, h2, h3, h4, hcl⟩ := hatch_parts h
  obtain ⟨o1, o2, _⟩ := cliff_paired h1 h2 h3 h4
  obtain ⟨xl, yl, xr, yL, yR, e1, e2, e3, e4, e5⟩ := hatch_pts h1 h2 h3 h4
  have hgm : g ∈ a.rows := List.mem_of_getLast? hg
  unfold cliffLeft at h1
  unfold cliffRight at h2
  simp only [bind_ok, pure_ok] at h1 h2
  obtain ⟨y1, _, rfl⟩ := h1
  obtain ⟨y2, _, rfl⟩ := h2
  have hxr : xr = fin g.x := by
    obtain ⟨l, hl⟩ : ∃ l, a.rows = l ++ [g] := ⟨a.rows.dropLast, by rw [List.dropLast_append_getLast? g hg]⟩
    rw [hl, List.filter_append, List.filter_cons_of_pos (by simpa using hgx.le)] at e4
    simp only [List.filter_nil, List.map_append, List.map_cons, List.map_nil] at e4
    rw [← List.cons_append, List.getLast?_append] at e4
    simpa using e4.symm
  subst hxr
  rcases hall (fin g.x, fin g.x) (by rw [e5]; simp) with hp | hp | hp
  · simp at hp
  · simp only [Fl.fin.injEq] at hp
    linarith
  · rw [hcl, pts_gap o1] at hp
    rcases List.mem_append.mp hp with hp | hp
    · have hx := (List.of_mem_zip hp).1
      simp only [List.mem_append, List.mem_map, List.mem_filter, decide_eq_true_eq, List.mem_singleton, Fl.fin.injEq] at hx
      rcases hx with ⟨r, ⟨_, hr⟩, hx⟩ | hx
      · linarith
      · linarith
    · rcases List.mem_cons.mp hp with hp | hp
      · simp at hp
      · unfold pts at hp
        simp only [List.zip_cons_cons, List.mem_cons, Prod.mk.injEq, Fl.fin.injEq] at hp
        rcases hp with ⟨hx, _⟩ | hp
        · linarith
        · rw [List.zip_map', List.mem_map] at hp
          obtain ⟨r, hr, he⟩ := hp
          simp only [Prod.mk.injEq, Fl.fin.injEq] at he
          have hnd : (a.rows.map (·.x)).Nodup := hinc.imp (fun h => ne_of_lt h)
          have : r = g := List.inj_on_of_nodup_map hnd (List.mem_filter.mp hr).1 hgm he.1
          rw [this] at he
          exact hy he.2

/-- C103 refuted: in the example, with the cliff at Y = 0 everywhere, one vertex of the hatched area is at Y = 40. -/
theorem C103_refuted : ¬ C103 ℚ := by
  intro h
  obtain ⟨v, h1, _⟩ := coLong_outlet
  exact C103_refuted_general h1 (by decide +kernel) (g := brRow 40) (by decide +kernel) (by decide +kernel) (by decide +kernel) (by decide +kernel)
    (fun p hp => h _ _ v h1 p hp)

/-! ## C104 -/

/-- C104: with an open outlet of width `w` ending at X = `e`, the transects strictly inside the mouth are drawn as dots, all others
are on the shoreline, and no vertex of the shoreline is strictly inside the mouth. -/
theorem C104_mouth {free : List (K × Fl K) → Fl K → Fl K} {a : ViewIn K} {v : View K} (h : updateModelView free a = .ok v) (hc : a.Closed = false)
    {e w : K} (he : a.EndX1 = fin e) (hw : a.EndWidth = fin w) :
    (∀ r ∈ a.rows, (e - w / 2 < r.x ∧ r.x < e + w / 2 → (fin r.x, r.y0) ∈ pts v.dots) ∧
      (¬ (e - w / 2 < r.x ∧ r.x < e + w / 2) → (fin r.x, r.y0) ∈ pts v.shore)) ∧
    (∀ p ∈ pts v.dots, ∃ r ∈ a.rows, (e - w / 2 < r.x ∧ r.x < e + w / 2) ∧ p = (fin r.x, r.y0)) ∧
    (∀ p ∈ pts v.shore, ∀ x, p.1 = fin x → ¬ (e - w / 2 < x ∧ x < e + w / 2)) := by
  obtain ⟨cl, cr, rl, rr, hatch, usL, usR, dsL, dsR, lb, rb, h1, h2, h3, h4, h5, h6, h7⟩ := open_inv h hc
  obtain ⟨l0, r0, ov, b1, b2, k1, k2, _⟩ := banks_inv h6
  obtain ⟨_, eb⟩ := left_ends b1
  obtain ⟨_, ed⟩ := right_ends b2
  rw [← k1] at eb
  rw [← k2] at ed
  obtain ⟨xl, yl, xr, yr, xl0, yl0, xr0, yr0, e1, e2, e3, e4, e5, e6, e7, e8, s1, s2, s3, s4, s5, s6, s7, s8, s9, s10⟩ := openView_inv h7
  have hds : dsL = fin (e - w / 2) ∧ dsR = fin (e + w / 2) := by
    unfold bankEnds at h5
    simp only [bind_ok, pure_ok, Prod.mk.injEq] at h5
    obtain ⟨_, _, _, _, _, _, _, _, _, _, _, _, _, _, d1, d2⟩ := h5
    rw [he, hw] at d1 d2
    exact ⟨by rw [← d1]; simp, by rw [← d2]; simp⟩
  obtain ⟨rfl, rfl⟩ := hds
  rw [eb] at e1
  rw [ed] at e3
  cases e1
  cases e3
  have hsh : pts v.shore = (a.rows.filter (fun r => fin r.x ≤? fin (e - w / 2))).map (fun r => (fin r.x, r.y0)) ++ (fin (e - w / 2), yl) :: (nan, nan) ::
      (fin (e + w / 2), yr) :: (a.rows.filter (fun r => fin (e + w / 2) ≤? fin r.x)).map (fun r => (fin r.x, r.y0)) := by
    unfold pts
    rw [s1, s2, List.zip_append (by simp [colLine]), List.zip_append (by simp [colLine])]
    simp [colLine, List.zip_map']
  have hdt : pts v.dots = (a.rows.filter (fun r => !(fin r.x ≤? fin (e - w / 2) || fin (e + w / 2) ≤? fin r.x))).map (fun r => (fin r.x, r.y0)) := by
    unfold pts
    rw [s5]
    simp [colLine, List.zip_map']
  rw [hsh, hdt]
  refine ⟨?_, ?_, ?_⟩
  · intro r hr
    constructor
    · intro hb
      refine List.mem_map.mpr ⟨r, List.mem_filter.mpr ⟨hr, ?_⟩, rfl⟩
      simp only [ble_fin, Bool.not_or, Bool.and_eq_true, Bool.not_eq_true', decide_eq_false_iff_not, not_le]
      exact hb
    · intro hb
      by_cases hl : r.x ≤ e - w / 2
      · exact List.mem_append_left _ (List.mem_map.mpr ⟨r, List.mem_filter.mpr ⟨hr, by simpa using hl⟩, rfl⟩)
      · have hr' : e + w / 2 ≤ r.x := by
          by_contra hn
          exact hb ⟨not_le.mp hl, not_le.mp hn⟩
        exact List.mem_append_right _ (List.mem_cons_of_mem _ (List.mem_cons_of_mem _ (List.mem_cons_of_mem _
          (List.mem_map.mpr ⟨r, List.mem_filter.mpr ⟨hr, by simpa using hr'⟩, rfl⟩))))
  · intro p hp
    obtain ⟨r, hr, rfl⟩ := List.mem_map.mp hp
    obtain ⟨hr, hb⟩ := List.mem_filter.mp hr
    simp only [ble_fin, Bool.not_or, Bool.and_eq_true, Bool.not_eq_true', decide_eq_false_iff_not, not_le] at hb
    exact ⟨r, hr, hb, rfl⟩
  · intro p hp x hx hb
    simp only [List.mem_append, List.mem_map, List.mem_filter, List.mem_cons, ble_fin, decide_eq_true_eq] at hp
    rcases hp with ⟨r, ⟨_, hr⟩, rfl⟩ | rfl | rfl | rfl | ⟨r, ⟨_, hr⟩, rfl⟩
    · simp only [Fl.fin.injEq] at hx; linarith
    · simp only [Fl.fin.injEq] at hx; linarith
    · cases hx
    · simp only [Fl.fin.injEq] at hx; linarith
    · simp only [Fl.fin.injEq] at hx; linarith

/-- C104: with a closed outlet the shoreline goes through all transects and nothing is drawn for the outlet. -/
theorem C104_closed {free : List (K × Fl K) → Fl K → Fl K} {a : ViewIn K} {v : View K} (h : updateModelView free a = .ok v) (hc : a.Closed = true) :
    pts v.shore = a.rows.map (fun r => (fin r.x, r.y0)) ∧ pts v.lagoon = a.rows.map (fun r => (fin r.x, r.y3)) ∧ pts v.outlet = [(nan, nan)] ∧
      pts v.dots = [(nan, nan)] := by
  obtain ⟨cl, cr, rl, rr, hatch, h1, h2, h3, h4, h5⟩ := closed_inv h hc
  unfold closedView at h5
  simp only [bind_ok, pure_ok] at h5
  obtain ⟨_, _, _, _, rfl⟩ := h5
  refine ⟨?_, ?_, rfl, rfl⟩
  · simp [pts, List.zip_map']
  · simp [pts, List.zip_map']

/-- In the example the mouth from 25 to 31 contains the transect at 30. -/
example : coLong.EndX1 = fin 28 ∧ coLong.EndWidth = fin 6 ∧ (∃ r ∈ coLong.rows, (28 : ℚ) - 6 / 2 < r.x ∧ r.x < 28 + 6 / 2) ∧
    ∃ r ∈ coLong.rows, ¬ ((28 : ℚ) - 6 / 2 < r.x ∧ r.x < 28 + 6 / 2) := by
  refine ⟨rfl, rfl, ?_, ?_⟩ <;> decide +kernel

end Verif.Props
