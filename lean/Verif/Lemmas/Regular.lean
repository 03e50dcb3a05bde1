import Verif.Lemmas.MorLimit
import Verif.Lemmas.Cliff
import Verif.Spec.Regular

set_option autoImplicit false
set_option linter.unusedSectionVars false

/-! # Regular arguments give finite rates -/

namespace Verif.Model
open Verif Fl Verif.Spec

variable {K : Type} [Field K] [LinearOrder K] [IsStrictOrderedRing K]

theorem isNumber_iff {v : Fl K} : IsNumber v ↔ ∃ x, v = fin x := by cases v <;> simp [IsNumber]

theorem apart_iff {u v : Fl K} : Apart u v ↔ ∃ x y, u = fin x ∧ v = fin y ∧ x ≠ y := by
  constructor
  · intro h
    cases u <;> cases v <;> simp only [Apart] at h
    exact ⟨_, _, rfl, rfl, h⟩
  · rintro ⟨x, y, rfl, rfl, h⟩
    exact h

/-- A nonzero number. -/
def NZ (v : Fl K) : Prop := ∃ x, v = fin x ∧ x ≠ 0

theorem NZ.num {v : Fl K} (h : NZ v) : IsNumber v := by obtain ⟨x, rfl, _⟩ := h; trivial
theorem num_fin (x : K) : IsNumber (fin x) := trivial
theorem num_add {u v : Fl K} (hu : IsNumber u) (hv : IsNumber v) : IsNumber (u + v) := by
  rw [isNumber_iff] at *; obtain ⟨x, rfl⟩ := hu; obtain ⟨y, rfl⟩ := hv; simp
theorem num_sub {u v : Fl K} (hu : IsNumber u) (hv : IsNumber v) : IsNumber (u - v) := by
  rw [isNumber_iff] at *; obtain ⟨x, rfl⟩ := hu; obtain ⟨y, rfl⟩ := hv; simp
theorem num_mul {u v : Fl K} (hu : IsNumber u) (hv : IsNumber v) : IsNumber (u * v) := by
  rw [isNumber_iff] at *; obtain ⟨x, rfl⟩ := hu; obtain ⟨y, rfl⟩ := hv; simp
theorem num_neg {u : Fl K} (hu : IsNumber u) : IsNumber (-u) := by
  rw [isNumber_iff] at *; obtain ⟨x, rfl⟩ := hu; simp
theorem num_abs {u : Fl K} (hu : IsNumber u) : IsNumber u.abs := by
  rw [isNumber_iff] at *; obtain ⟨x, rfl⟩ := hu; simp
theorem num_div {u v : Fl K} (hu : IsNumber u) (hv : NZ v) : IsNumber (u / v) := by
  rw [isNumber_iff] at *; obtain ⟨x, rfl⟩ := hu; obtain ⟨y, rfl, h⟩ := hv; exact ⟨_, div_fin x y h⟩
theorem num_npmax {u v : Fl K} (hu : IsNumber u) (hv : IsNumber v) : IsNumber (npmax u v) := by
  rw [isNumber_iff] at *; obtain ⟨x, rfl⟩ := hu; obtain ⟨y, rfl⟩ := hv
  unfold npmax; simp; split <;> simp
theorem num_npmin {u v : Fl K} (hu : IsNumber u) (hv : IsNumber v) : IsNumber (npmin u v) := by
  rw [isNumber_iff] at *; obtain ⟨x, rfl⟩ := hu; obtain ⟨y, rfl⟩ := hv
  unfold npmin; simp; split <;> simp
theorem nz_mul {u v : Fl K} (hu : NZ u) (hv : NZ v) : NZ (u * v) := by
  obtain ⟨x, rfl, h⟩ := hu; obtain ⟨y, rfl, h'⟩ := hv; exact ⟨x * y, by simp, mul_ne_zero h h'⟩
theorem nz_fin {x : K} (h : x ≠ 0) : NZ (fin x) := ⟨x, rfl, h⟩
theorem nz_sub {u v : Fl K} (h : Apart u v) : NZ (u - v) := by
  obtain ⟨x, y, rfl, rfl, h⟩ := apart_iff.mp h; exact ⟨x - y, by simp, sub_ne_zero.mpr h⟩
theorem apart_symm {u v : Fl K} (h : Apart u v) : Apart v u := by
  obtain ⟨x, y, rfl, rfl, h⟩ := apart_iff.mp h; exact apart_iff.mpr ⟨y, x, rfl, rfl, h.symm⟩

/-- Every entry is a number. -/
def Nums (l : List (Fl K)) : Prop := ∀ v ∈ l, IsNumber v

theorem nums_zero (n : ℕ) : Nums (List.replicate n (fin (0 : K))) := by
  intro v hv; rw [List.eq_of_mem_replicate hv]; trivial

theorem scatter_nums : ∀ {l : List (Fl K)} {ix : List ℕ} {vs l' : List (Fl K)}, Nums l → Nums vs →
    scatter (fun old v => old + v) l ix vs = .ok l' → Nums l'
  | l, [], [], l', hl, _, h => by unfold scatter at h; cases h; exact hl
  | l, [], _ :: _, l', _, _, h => by unfold scatter at h; cases h
  | l, _ :: _, [], l', _, _, h => by unfold scatter at h; cases h
  | l, i :: ix, v :: vs, l', hl, hv, h => by
    unfold scatter at h
    simp only [bind_ok, ixGet_ok] at h
    obtain ⟨old, ho, h⟩ := h
    refine scatter_nums ?_ (fun x hx => hv x (by simp [hx])) h
    intro x hx
    rcases List.mem_or_eq_of_mem_set hx with hx | rfl
    · exact hl x hx
    · exact num_add (hl _ (List.mem_of_getElem? ho)) (hv v (by simp))

theorem addCol_nums {l l' : List (Fl K)} {ixs : List ℕ} {ss : List (Sec K)} {rs : List (Transect K)} {f : Sec K → Transect K → Fl K}
    (h : addCol l ixs ss rs f = .ok l') (hl : Nums l) (hf : ∀ s ∈ ss, ∀ r ∈ rs, IsNumber (f s r)) : Nums l' := by
  unfold addCol at h
  split at h
  · cases h
  · refine scatter_nums hl ?_ h
    intro v hv
    obtain ⟨i, hi⟩ := List.mem_iff_getElem?.mp hv
    rw [List.getElem?_zipWith] at hi
    split at hi
    · next s r hs hr =>
      cases hi
      exact hf _ (List.mem_of_getElem? hs) _ (List.mem_of_getElem? hr)
    · cases hi

theorem ite_ok {α : Type} {P : Prop} [Decidable P] {e : PyErr} {x y : α} (h : (if P then Except.error e else Except.ok x) = Except.ok y) :
    x = y := by
  split at h <;> cases h; rfl

theorem sections_nums {pp : PhysPars K} {a : MorIn K} {ss : List (Sec K)} (hb : Nums a.Bedload) (h : sections pp a = .ok ss) :
    ∀ s ∈ ss, IsNumber s.dvol := by
  unfold sections at h
  dsimp only at h
  have h := ite_ok h
  · subst h
    intro s hs
    obtain ⟨i, hi⟩ := List.mem_iff_getElem?.mp hs
    rw [List.getElem?_zipWith] at hi
    split at hi
    · next d p hd hp =>
      cases hi
      have hd := List.mem_of_getElem? hd
      show IsNumber d
      have key : ∀ l1 l2 : List (Fl K), Nums l1 → Nums l2 → d ∈ List.zipWith (· - ·) l1 l2 → IsNumber d := by
        intro l1 l2 h1 h2 hd
        obtain ⟨i, hi⟩ := List.mem_iff_getElem?.mp hd
        rw [List.getElem?_zipWith] at hi
        split at hi
        · next u v hu hv => cases hi; exact num_sub (h1 _ (List.mem_of_getElem? hu)) (h2 _ (List.mem_of_getElem? hv))
        · cases hi
      split at hd
      · refine key _ _ hb ?_ hd
        intro v hv
        rcases List.mem_append.mp hv with hv | hv
        · exact hb v (List.mem_of_mem_tail hv)
        · rw [List.mem_singleton.mp hv]; trivial
      · exact key _ _ (fun v hv => hb v (List.mem_of_mem_dropLast hv)) (fun v hv => hb v (List.mem_of_mem_tail hv)) hd
    · cases hi

theorem gather_rows {α : Type} {l out : List α} {ix : List ℕ} (h : gather l ix = .ok out) : ∀ x ∈ out, ∃ i ∈ ix, l[i]? = some x := by
  intro x hx
  obtain ⟨k, hk⟩ := List.mem_iff_getElem?.mp hx
  rw [gather_getElem? h] at hk
  obtain ⟨i, hi, hl⟩ := Option.bind_eq_some_iff.mp hk
  exact ⟨i, List.mem_of_getElem? hi, hl⟩

theorem sec_nums {s : Sec K} (h : IsNumber s.dvol) : IsNumber s.ero ∧ IsNumber s.bedEro ∧ IsNumber s.bankEro ∧ IsNumber s.bedDep := by
  have e : IsNumber s.ero := num_neg (num_npmin h trivial)
  refine ⟨e, num_mul e ?_, num_mul e ?_, num_npmax h trivial⟩ <;> split <;> trivial

/-- Every rate is a number. -/
def Rates.Nums (R : Rates K) : Prop :=
  Model.Nums R.y0 ∧ Model.Nums R.y1 ∧ Model.Nums R.y2 ∧ Model.Nums R.y3 ∧ Model.Nums R.y4 ∧ Model.Nums R.z0 ∧ Model.Nums R.z1 ∧ Model.Nums R.z3 ∧
    Model.Nums R.riv ∧ IsNumber R.endW ∧ IsNumber R.endZ ∧ IsNumber R.endX

theorem Rates.Nums.finite {R : Rates K} (h : R.Nums) : R.Finite := by
  obtain ⟨a, b, c, d, e, f, g, i, j, k, l, m⟩ := h
  intro col hc v hv
  rw [← isNumber_iff]
  simp only [Rates.cols, List.mem_cons, List.not_mem_nil, or_false] at hc
  rcases hc with rfl | rfl | rfl | rfl | rfl | rfl | rfl | rfl | rfl | rfl | rfl | rfl
  · exact a v hv
  · exact b v hv
  · exact c v hv
  · exact d v hv
  · exact e v hv
  · exact f v hv
  · exact g v hv
  · exact i v hv
  · exact j v hv
  · rw [List.mem_singleton.mp hv]; exact k
  · rw [List.mem_singleton.mp hv]; exact l
  · rw [List.mem_singleton.mp hv]; exact m

/-- What is divided by at a cell. -/
def CellReg (c : Cell K) : Prop := NZ c.sfh ∧ NZ c.cw ∧ NZ c.bh

theorem mkCell_reg {pp : PhysPars K} {a : MorIn K} {i : ℕ} {r : Transect K} (h : RegularBarrier pp.ClosureDepth r)
    (hcw : (fin 0 <? (mkCell pp a i r).cw) = true) : CellReg (mkCell pp a i r) := by
  obtain ⟨h0, hz, hb⟩ := h
  have pos : ∀ u v : Fl K, IsNumber u → IsNumber v → (fin 0 <? (u - v)) = true → NZ (u - v) := by
    intro u v hu hv hp
    obtain ⟨w, hw⟩ := isNumber_iff.mp (num_sub hu hv)
    rw [hw] at hp ⊢
    simp only [blt_fin, decide_eq_true_eq] at hp
    exact ⟨w, rfl, hp.ne'⟩
  refine ⟨?_, ?_, ?_⟩
  · obtain ⟨x, y, e1, e2, hne⟩ := apart_iff.mp hz
    cases e2
    refine ⟨pp.ClosureDepth + x, by simp [mkCell, e1], ?_⟩
    intro he; apply hne; linarith
  · unfold mkCell at hcw ⊢
    dsimp only at hcw ⊢
    split at hb
    · next hn =>
      simp only [hn, Bool.not_true, Bool.false_eq_true, if_false] at hcw ⊢
      exact pos _ _ h0 hb.1 hcw
    · next hn =>
      simp only [hn, Bool.not_false, if_true] at hcw ⊢
      exact pos _ _ h0 hb.1 hcw
  · unfold mkCell
    dsimp only
    split at hb
    · next hn =>
      simp only [hn, Bool.not_true, Bool.false_eq_true, if_false]
      exact nz_sub hb.2
    · next hn =>
      simp only [hn, Bool.not_false, if_true]
      exact nz_sub hb.2

theorem riverRates_nums {pp : PhysPars K} {a : MorIn K} {cells : List (Cell K)} {R : Rates K} (hr : Regular pp a)
    (hc : ∀ c ∈ cells, CellReg c) (h : riverRates pp a cells = .ok R) : R.Nums := by
  obtain ⟨hd, hw, hb, -, -, -, -, hon, hopen⟩ := hr
  have hd' := nz_fin hd
  unfold riverRates at h
  simp only [bind_ok] at h
  obtain ⟨ss, hss, onRows, hg, z3, h3, y3, h4, y4, h5, h⟩ := h
  have hsec : ∀ {k : ℕ}, ∀ s ∈ ss.filter (·.flag == k), IsNumber s.dvol := fun s hs => sections_nums hb hss s (List.mem_of_mem_filter hs)
  have hlag : ∀ r ∈ onRows, RegularLagoon pp.BackshoreElev r := by
    intro r hr
    obtain ⟨i, hi, hri⟩ := gather_rows hg r hr
    exact hon i hi r hri
  have hz := nums_zero (K := K) a.rows.length
  have nz3 : Nums z3 := addCol_nums h3 hz (fun s hs r hr => by
    obtain ⟨_, e2, _, e4⟩ := sec_nums (hsec s hs)
    exact num_div (num_sub e4 e2) (nz_mul (nz_sub (hlag r hr).1) hd'))
  have two : NZ (fin (2 : K)) := nz_fin two_ne_zero
  have ny3 : Nums y3 := addCol_nums h4 hz (fun s hs r hr => by
    obtain ⟨_, _, e3, _⟩ := sec_nums (hsec s hs)
    exact num_div (num_div e3 two) (nz_mul (nz_sub (hlag r hr).2.1) hd'))
  have ny4 : Nums y4 := addCol_nums h5 hz (fun s hs r hr => by
    obtain ⟨_, _, e3, _⟩ := sec_nums (hsec s hs)
    exact num_neg (num_div (num_div e3 two) (nz_mul (nz_sub (hlag r hr).2.2) hd')))
  have nriv : Nums ((ss.filter (·.flag == 0)).map (fun s => (s.bedDep - s.ero) / (fin pp.RiverWidth * fin a.Dx))) := by
    intro v hv
    obtain ⟨s, hs, rfl⟩ := List.mem_map.mp hv
    obtain ⟨e1, _, _, e4⟩ := sec_nums (hsec s hs)
    exact num_div (num_sub e4 e1) (nz_mul (nz_fin hw) hd')
  split at h
  · cases h
    exact ⟨hz, hz, hz, ny3, ny4, hz, hz, nz3, nriv, trivial, trivial, trivial⟩
  · next hcl =>
    simp only [bind_ok] at h
    obtain ⟨outRows, hg', z1, h6, y1, h7, y2, h8, e, he, bl, hbl, h⟩ := h
    obtain ⟨hch, hx1, hew, hez, hsp, hsd⟩ := hopen (by simpa using hcl)
    have hchan : ∀ r ∈ outRows, RegularChannel r := by
      intro r hr
      obtain ⟨i, hi, hri⟩ := gather_rows hg' r hr
      exact hch i hi r hri
    have nz1 : Nums z1 := addCol_nums h6 hz (fun s hs r hr => by
      obtain ⟨_, e2, _, e4⟩ := sec_nums (hsec s hs)
      exact num_div (num_sub e4 e2) (nz_mul (nz_sub (hchan r hr).1) hd'))
    have ny1 : Nums y1 := addCol_nums h7 hz (fun s hs r hr => by
      obtain ⟨_, _, e3, _⟩ := sec_nums (hsec s hs)
      exact num_div (num_div e3 two) (nz_mul (nz_sub (hchan r hr).2.1) hd'))
    have ny2 : Nums y2 := addCol_nums h8 hz (fun s hs r hr => by
      obtain ⟨_, _, e3, _⟩ := sec_nums (hsec s hs)
      exact num_neg (num_div (num_div e3 two) (nz_mul (nz_sub (hchan r hr).2.2) hd')))
    have nee : IsNumber e.dvol := by
      revert he
      split
      · next x hx =>
        intro he
        cases he
        exact hsec (k := 3) _ (by rw [hx]; simp)
      · intro he; cases he
    obtain ⟨_, e2, e3, e4⟩ := sec_nums nee
    have nbl : IsNumber bl := by
      rw [pyGet_last] at hbl
      exact hb _ (List.mem_of_getLast? hbl)
    have newW : NZ (a.EndWidth : Fl K) := by
      obtain ⟨x, y, e1, e2, hne⟩ := apart_iff.mp hew
      cases e2
      exact ⟨x, e1, hne⟩
    have nW : IsNumber (e.bankEro / ((fin pp.BeachTopElev - a.EndElev) * fin pp.SpitWidth)) :=
      num_div e3 (nz_mul (nz_sub (apart_symm hez)) (nz_fin hsp))
    have nmv := num_mul (num_div nW two) (num_fin pp.OutletBankEroFac)
    cases h
    refine ⟨?_, ny1, ny2, ny3, ny4, hz, nz1, nz3, nriv, nW, num_div (num_sub e4 e2) (nz_mul newW hd'), ?_⟩
    · intro v hv
      obtain ⟨c, hcm, rfl⟩ := List.mem_map.mp hv
      refine num_div ?_ (nz_mul (hc c hcm).1 hd')
      unfold toShore
      exact num_mul (num_div (num_mul trivial nbl) (nz_fin hsd))
        (num_npmax (num_sub trivial (num_div (num_abs (num_sub trivial hx1)) (nz_fin hsd))) trivial)
    · show IsNumber (if _ then _ else _)
      split
      · exact nmv
      · split
        · exact num_neg nmv
        · trivial

theorem getD_nums {l : List (Fl K)} (hl : Nums l) {i : ℕ} (hi : i < l.length) : IsNumber ((l[i]?).getD nan) := by
  rw [List.getElem?_eq_getElem hi]; exact hl _ (List.getElem_mem hi)

theorem mapIdx_nums {l : List (Fl K)} {cells : List (Cell K)} {f : ℕ → Fl K × Cell K → Fl K} (hl : Nums l)
    (hf : ∀ i v c, i < cells.length → IsNumber v → c ∈ cells → IsNumber (f i (v, c))) : Nums ((l.zip cells).mapIdx f) := by
  intro v hv
  obtain ⟨i, hi⟩ := List.mem_iff_getElem?.mp hv
  rw [List.getElem?_mapIdx] at hi
  obtain ⟨⟨u, c⟩, hp, rfl⟩ := Option.map_eq_some_iff.mp hi
  have hm := List.of_mem_zip (List.mem_of_getElem? hp)
  have hlt := (List.getElem?_eq_some_iff.mp hp).1
  rw [List.length_zip] at hlt
  exact hf i u c (by omega) (hl _ hm.1) hm.2

theorem lstRates_nums {pp : PhysPars K} {a : MorIn K} {rb : ℕ} {cells cells' : List (Cell K)} {R R' : Rates K} (hr : Regular pp a)
    (hc : ∀ c ∈ cells, CellReg c) (hR : R.Nums) (h : lstRates pp a rb cells R = .ok (R', cells')) :
    R'.Nums ∧ ∀ c ∈ cells', CellReg c := by
  obtain ⟨hd, hw, hb, hl, -, -, -, -, hopen⟩ := hr
  have hd' := nz_fin hd
  obtain ⟨n0, n1, n2, n3, n4, m0, m1, m3, nr, nw, nz, nx⟩ := hR
  unfold lstRates at h
  simp only [bind_ok] at h
  obtain ⟨y0, hy, h⟩ := h
  have ny0 : Nums y0 := by
    unfold lstInterior at hy
    dsimp only at hy
    split at hy
    · cases hy
    · next hlen =>
      cases hy
      refine mapIdx_nums n0 ?_
      intro i v c hi hv hcm
      dsimp only
      split
      · next hin =>
        exact num_add hv (num_div (num_sub (getD_nums hl (by omega)) (getD_nums hl (by omega))) (nz_mul (hc c hcm).1 hd'))
      · exact hv
  split at h
  · cases h
    exact ⟨⟨ny0, n1, n2, n3, n4, m0, m1, m3, nr, nw, nz, nx⟩, hc⟩
  · next hcl =>
    obtain ⟨-, hx1, hew, hez, hsp, hsd⟩ := hopen (by simpa using hcl)
    have hden := nz_mul (nz_sub (apart_symm hez)) (nz_fin hsp)
    have two : NZ (fin (2 : K)) := nz_fin two_ne_zero
    simp only [bind_ok, ixGet_ok] at h
    obtain ⟨l, hl', h⟩ := h
    have nl := hl _ (List.mem_of_getElem? hl')
    split at h
    · simp only [bind_ok, ixGet_ok] at h
      obtain ⟨c, hcc, h⟩ := h
      cases h
      refine ⟨⟨?_, n1, n2, n3, n4, m0, m1, m3, nr, num_sub nw (num_div nl hden), nz, num_add nx (num_div (num_div nl hden) two)⟩, hc⟩
      intro v hv
      obtain ⟨i, hi⟩ := List.mem_iff_getElem?.mp hv
      rw [List.getElem?_modify] at hi
      obtain ⟨u, hu, rfl⟩ := Option.map_eq_some_iff.mp hi
      have nu := ny0 _ (List.mem_of_getElem? hu)
      split
      · exact num_sub nu (num_div nl (nz_mul (hc c (List.mem_of_getElem? hcc)).1 hd'))
      · exact nu
    · simp only [bind_ok, ixGet_ok] at h
      obtain ⟨c, hcc, h⟩ := h
      cases h
      refine ⟨⟨ny0, n1, n2, n3, n4, m0, m1, m3, nr, num_sub nw (num_div (num_neg nl) hden), nz,
        num_sub nx (num_div (num_div (num_neg nl) hden) two)⟩, ?_⟩
      intro c' hc'
      obtain ⟨i, hi⟩ := List.mem_iff_getElem?.mp hc'
      rw [List.getElem?_modify] at hi
      obtain ⟨u, hu, rfl⟩ := Option.map_eq_some_iff.mp hi
      have nu := hc _ (List.mem_of_getElem? hu)
      split
      · exact nu
      · exact nu

theorem cstRates_nums {pp : PhysPars K} {a : MorIn K} {cells : List (Cell K)} {R R' : Rates K} (hr : Regular pp a)
    (hc : ∀ c ∈ cells, CellReg c) (hR : R.Nums) (h : cstRates pp a cells R = .ok R') : R'.Nums := by
  obtain ⟨hd, hw, hb, -, hcs, hop, -⟩ := hr
  obtain ⟨n0, n1, n2, n3, n4, m0, m1, m3, nr, nw, nz, nx⟩ := hR
  unfold cstRates at h
  dsimp only at h
  split at h
  · cases h
  · next hlen =>
    cases h
    have l1 : a.CST.length = cells.length := by by_contra hh; exact hlen (Or.inl hh)
    have l2 : a.OverwashProp.length = cells.length := by by_contra hh; exact hlen (Or.inr hh)
    refine ⟨mapIdx_nums n0 ?_, mapIdx_nums n1 ?_, n2, mapIdx_nums n3 ?_, n4, mapIdx_nums m0 ?_, m1, m3, nr, nw, nz, nx⟩ <;>
      (intro i v c hi hv hcm; obtain ⟨g1, g2, g3⟩ := hc c hcm;
       have k1 := getD_nums hcs (i := i) (by omega); have k2 := getD_nums hop (i := i) (by omega))
    · dsimp only; split
      · exact num_sub hv (num_div k1 g1)
      · exact num_div (num_neg trivial) (nz_fin (by norm_num))
    · dsimp only; split
      · exact num_sub hv (num_div (num_mul k2 k1) g3)
      · exact hv
    · dsimp only; split
      · exact hv
      · exact num_sub hv (num_div (num_mul k2 k1) g3)
    · exact num_add hv (num_div (num_mul (num_sub trivial k2) k1) g2)

/-- With regular arguments every computed rate is a number. -/
theorem regular_finite {pp : PhysPars K} {a : MorIn K} (hr : Regular pp a) {X0 rb : ℕ} {cells cells' : List (Cell K)} {R : Rates K}
    (hp : precalc pp a = .ok (cells, X0, rb)) (h : allRates pp a rb cells = .ok (R, cells')) : R.Finite := by
  have hc : ∀ c ∈ cells, CellReg c := by
    unfold precalc at hp
    simp only [bind_ok] at hp
    obtain ⟨x0, _, rb', _, hp⟩ := hp
    split at hp
    · cases hp
    · split at hp
      · cases hp
      · simp only [bind_ok, pyAssert_ok] at hp
        obtain ⟨_, _, _, hcw, hp⟩ := hp
        cases hp
        intro c hcm
        have hpos := List.all_eq_true.mp hcw c hcm
        obtain ⟨i, hi⟩ := List.mem_iff_getElem?.mp hcm
        rw [List.getElem?_mapIdx] at hi
        obtain ⟨r, hri, rfl⟩ := Option.map_eq_some_iff.mp hi
        exact mkCell_reg (hr.2.2.2.2.2.2.1 r (List.mem_of_getElem? hri)) hpos
  unfold allRates at h
  simp only [bind_ok] at h
  obtain ⟨R1, h1, ⟨R2, c2⟩, h2, R3, h3, h⟩ := h
  cases h
  obtain ⟨g2, g3⟩ := lstRates_nums hr hc (riverRates_nums hr hc h1) h2
  exact (cstRates_nums hr g3 g2 h3).finite

end Verif.Model
