import Verif.Py
import Verif.Model.RealFn

set_option autoImplicit false

/-! # Model of `solveSteady` in `hapuamod/riv.py` -/

namespace Verif.Model
open Verif Fl

/-- riv.py 16: gravity is a literal in this function. -/
noncomputable def gravSteady : ℝ := 9.81

/-- riv.py 9-19: scalar inputs. -/
structure SteadyPars where
  n : ℝ        -- Roughness
  Q : ℝ        -- Qin
  DsWL : ℝ
  Beta : ℝ
  Tol : ℝ      -- ErrTol
  MaxIt : ℕ

/-- riv.py 26: critical depth for width `B`. -/
noncomputable def critDep (p : SteadyPars) (B : Fl ℝ) : Fl ℝ :=
  npPow (fin p.Q * fin p.Q / (B * B * fin gravSteady)) (1/3)

/-- riv.py 33, 67: velocity. -/
noncomputable def steadyVel (p : SteadyPars) (B dep : Fl ℝ) : Fl ℝ := fin p.Q / (B * dep)

/-- riv.py 34, 68: energy level. -/
noncomputable def steadyEnergy (p : SteadyPars) (z dep vel : Fl ℝ) : Fl ℝ :=
  z + dep + fin p.Beta * (vel * vel) / (fin 2 * fin gravSteady)

/-- riv.py 35, 69: friction slope. -/
noncomputable def steadySf (p : SteadyPars) (dep vel : Fl ℝ) : Fl ℝ :=
  (vel * vel) * fin (p.n ^ 2) / npPow dep (4/3)

/-- riv.py 53, 58: residual of the energy equation at depth `h`. -/
noncomputable def depErr (Acoef Bcoef Cconst h : Fl ℝ) : Fl ℝ :=
  h + Acoef * npPow h (-2) - Bcoef * npPow h (-10/3) + Cconst

/-- riv.py 56: derivative used by the Newton step. -/
noncomputable def depGrad (Acoef Bcoef h : Fl ℝ) : Fl ℝ :=
  fin 1 - fin 2 * Acoef * npPow h (-3) + fin (10/3) * Bcoef * npPow h (-13/3)

/-- riv.py 55-60: the Newton loop.  `fuel` is the number of iterations still allowed by the
assertion on line 60 (`MaxIt - 1 - CheckCount`): the iteration after the last allowed one
raises AssertionError. -/
noncomputable def steadyNewton (Acoef Bcoef Cconst : Fl ℝ) (Tol : ℝ) : ℕ → Fl ℝ → Fl ℝ → Except PyErr (Fl ℝ)
  | fuel, dep, err =>
    if fin Tol <? err.abs then
      match fuel with
      | 0 => .error .assertion
      | fuel + 1 =>
        let dep' := dep - err / depGrad Acoef Bcoef dep
        steadyNewton Acoef Bcoef Cconst Tol fuel dep' (depErr Acoef Bcoef Cconst dep')
    else .ok dep

/-- The four arrays filled by the sweep (riv.py 28-31). -/
structure SteadyArr where
  dep : List (Fl ℝ)
  vel : List (Fl ℝ)
  en : List (Fl ℝ)
  sf : List (Fl ℝ)

/-- riv.py 47-69: the depth of a section of bed level `z`, width `B`, at distance `dx` from
the next section downstream with bed level `z1`, depth `dep1`, energy `en1`, friction `sf1`. -/
noncomputable def steadyDepth (p : SteadyPars) (dx z B z1 dep1 en1 sf1 : Fl ℝ) : Except PyErr (Fl ℝ) := do
  -- 47
  let dep0 := (dep1 + z1) - z + sf1 * dx
  -- 50-53
  let Acoef := fin p.Beta * (fin p.Q * fin p.Q / (fin 2 * fin gravSteady * (B * B)))
  let Bcoef := dx * (fin p.Q * fin p.Q) * fin (p.n ^ 2) / (fin 2 * (B * B))
  let Cconst := z - sf1 * dx / fin 2 - en1
  -- 54-60
  let dep ← steadyNewton Acoef Bcoef Cconst p.Tol (p.MaxIt - 1) dep0 (depErr Acoef Bcoef Cconst dep0)
  -- 63-65
  return if dep <? critDep p B then critDep p B else dep

/-- riv.py 37-69: one pass of the sweep, for cross-section `XS`. -/
noncomputable def steadyStep (p : SteadyPars) (dx z B : List (Fl ℝ)) (s : SteadyArr) (XS : ℕ) :
    Except PyErr SteadyArr := do
  let dxi ← ixGet dx XS
  let zi ← ixGet z XS
  let Bi ← ixGet B XS
  let z1 ← ixGet z (XS + 1)
  let dep1 ← ixGet s.dep (XS + 1)
  let en1 ← ixGet s.en (XS + 1)
  let sf1 ← ixGet s.sf (XS + 1)
  let dep ← steadyDepth p dxi zi Bi z1 dep1 en1 sf1
  let vel := steadyVel p Bi dep
  return { dep := s.dep.set XS dep, vel := s.vel.set XS vel,
           en := s.en.set XS (steadyEnergy p zi dep vel), sf := s.sf.set XS (steadySf p dep vel) }

/-- riv.py 9-71, `solveSteady`.  Arrays are listed from upstream to downstream. -/
noncomputable def solveSteady (p : SteadyPars) (dx z B : List (Fl ℝ)) : Except PyErr (List (Fl ℝ) × List (Fl ℝ)) := do
  let N := z.length
  let zeros : List (Fl ℝ) := List.replicate N (fin 0)
  -- 32-35
  let zN ← pyGet z (-1)
  let BN ← pyGet B (-1)
  let depN := npmax (fin p.DsWL - zN) (critDep p BN)
  let velN := steadyVel p BN depN
  let s0 : SteadyArr := { dep := zeros.set (N-1) depN, vel := zeros.set (N-1) velN,
                          en := zeros.set (N-1) (steadyEnergy p zN depN velN),
                          sf := zeros.set (N-1) (steadySf p depN velN) }
  -- 37: for XS in range(N-2, -1, -1)
  let s ← (List.range (N - 1)).reverse.foldlM (steadyStep p dx z B) s0
  return (s.dep, s.vel)

end Verif.Model
