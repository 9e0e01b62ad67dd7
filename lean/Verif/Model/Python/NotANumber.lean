import Verif.Model.Python.Setters

/-!
# Infinities and NaN given to a `Coffe` object

The scalar settings of python/coffe/coffe.pyx once more, with floats that may be infinite or NaN.  Finite floats are
exact reals, as in the rest of the model: only the special values are added.
-/

namespace Coffe
open Classical

/-- A double: a number, an infinity, or NaN. -/
inductive Dbl where
  | fin (x : ℝ)
  | posInf
  | negInf
  | nan

/-- `a < b` of IEEE 754: false when either is NaN. -/
def Dbl.lt : Dbl → Dbl → Prop
  | .fin x, .fin y => x < y
  | .fin _, .posInf => True
  | .negInf, .fin _ => True
  | .negInf, .posInf => True
  | _, _ => False

/-- `a + b` of IEEE 754, without rounding. -/
def Dbl.add : Dbl → Dbl → Dbl
  | .fin x, .fin y => .fin (x + y)
  | .nan, _ => .nan
  | _, .nan => .nan
  | .posInf, .negInf => .nan
  | .negInf, .posInf => .nan
  | .posInf, _ => .posInf
  | _, .posInf => .posInf
  | .negInf, _ => .negInf
  | _, .negInf => .negInf

/-- `-a`. -/
def Dbl.neg : Dbl → Dbl
  | .fin x => .fin (-x)
  | .posInf => .negInf
  | .negInf => .posInf
  | .nan => .nan

/-- `a - b`. -/
def Dbl.sub (a b : Dbl) : Dbl := a.add b.neg

/-- `a / b` of IEEE 754, for `b` other than zero (Python raises for zero). -/
noncomputable def Dbl.div : Dbl → Dbl → Dbl
  | .nan, _ => .nan
  | _, .nan => .nan
  | .fin x, .fin y => .fin (x / y)
  | .fin _, _ => .fin 0
  | .posInf, .fin y => if 0 < y then .posInf else .negInf
  | .negInf, .fin y => if 0 < y then .negInf else .posInf
  | _, _ => .nan

/-- `np.allclose(value, old)`: NaN is not close to anything, an infinity only to itself. -/
def Dbl.close : Dbl → Dbl → Prop
  | .fin x, .fin y => allclose x y
  | .posInf, .posInf => True
  | .negInf, .negInf => True
  | _, _ => False

/-- The scalar settings that are doubles: coffe.pyx:1173-1531, 2466-2476 and 2895-2926. -/
inductive CName where
  | omega_cdm | omega_m | omega_baryon | omega_gamma | h | w0 | wa | n_s | sigma8 | A_s | T_cmb | N_ur | m_ncdm | YHe
  | integration_1d_prec | k_min | k_max
deriving DecidableEq, Repr

/-- The doubles of `coffe_parameters_t` that these settings are kept in. -/
structure DCosmo where
  Omega0_cdm : Dbl
  Omega0_baryon : Dbl
  Omega0_gamma : Dbl
  Omega0_nu : Dbl
  Omega0_m : Dbl
  Omega0_de : Dbl
  h : Dbl
  w0 : Dbl
  wa : Dbl
  n_s : Dbl
  sigma8 : Dbl
  A_s : Dbl
  T_cmb : Dbl
  N_ur : Dbl
  m_ncdm : Dbl
  YHe : Dbl
  integration_1d_prec : Dbl
  k_min : Dbl
  k_max : Dbl

/-- A `Coffe` object: `par` replaces the fields of the same name in `obj.par`. -/
structure DObj where
  par : DCosmo
  obj : PyObj

/-- An argument: a float, or anything else. -/
inductive DVal where
  | float (d : Dbl)
  | val (v : PyVal)

/-- `isinstance(value, kind)`, and the number. -/
noncomputable def DVal.asKind : DVal → Kind → Option Dbl
  | .float d, .intFloat => some d
  | .float d, .float => some d
  | .float _, .int => none
  | .val v, k => (v.asKind k).map .fin

/-- `_check_parameter`, coffe.pyx:86-109. -/
noncomputable def checkParameterD (v : DVal) (k : Kind) (xmin xmax : ℝ) : Except Err Dbl :=
  match v.asKind k with
  | none => .error .typeError
  | some x =>
    if x.lt (.fin xmin) then .error .valueError
    else if (Dbl.fin xmax).lt x then .error .valueError
    else .ok x

/-- `_check_omegas`, coffe.pyx:1056-1061. -/
noncomputable def checkOmegasD (total : Dbl) : Except Err Unit :=
  if (Dbl.fin 1).lt total then .error .valueError else .ok ()

/-- `_balance_content`, coffe.pyx:1112-1117. -/
def DCosmo.balance (p : DCosmo) : DCosmo :=
  { p with Omega0_de := ((Dbl.fin 1).sub p.Omega0_m).sub p.Omega0_gamma }

/-- A method of the object. -/
abbrev DPy := DObj → Except Err Unit × DObj

/-- Write parameters, then free. -/
def storeD (f : DCosmo → DCosmo) (free : PyObj → PyObj) : DPy := fun s => (.ok (), ⟨f s.par, free s.obj⟩)

/-- Check, then act. -/
noncomputable def checkedD (v : DVal) (k : Kind) (xmin xmax : ℝ) (act : Dbl → DPy) : DPy := fun s =>
  match checkParameterD v k xmin xmax with
  | .error e => (.error e, s)
  | .ok x => act x s

/-- Check, compare with the old value, then act. -/
noncomputable def guardedD (v : DVal) (k : Kind) (xmin xmax : ℝ) (old : DCosmo → Dbl) (act : Dbl → DPy) : DPy :=
  checkedD v k xmin xmax fun x s => if x.close (old s.par) then (.ok (), s) else act x s

/-- Check the budget, then act. -/
noncomputable def budgetD (total : DCosmo → Dbl) (act : DPy) : DPy := fun s =>
  match checkOmegasD (total s.par) with
  | .error e => (.error e, s)
  | .ok _ => act s

/-- Assignment `object.name = value`. -/
noncomputable def setD (n : CName) (v : DVal) : DPy :=
  match n with
  -- coffe.pyx:1180-1188
  | .omega_cdm => guardedD v .intFloat (-100) 100 (·.Omega0_cdm) fun x =>
      budgetD (fun p => ((x.add p.Omega0_baryon).add p.Omega0_gamma).add p.Omega0_nu) <|
      storeD (fun p => DCosmo.balance { p with Omega0_cdm := x, Omega0_m := x.add p.Omega0_baryon }) PyObj.freeAll
  -- coffe.pyx:1208-1217
  | .omega_m => guardedD v .intFloat (-100) 100 (·.Omega0_m) fun x =>
      budgetD (fun p => x.add p.Omega0_gamma) <|
      storeD (fun p => DCosmo.balance { p with
        Omega0_m := x, Omega0_cdm := (x.sub p.Omega0_baryon).sub p.Omega0_nu }) PyObj.freeAll
  -- coffe.pyx:1229-1237
  | .omega_baryon => guardedD v .intFloat (-100) 100 (·.Omega0_baryon) fun x =>
      budgetD (fun p => (x.add p.Omega0_cdm).add p.Omega0_gamma) <|
      storeD (fun p => DCosmo.balance { p with
        Omega0_baryon := x, Omega0_cdm := (p.Omega0_m.sub x).sub p.Omega0_nu }) PyObj.freeAll
  -- coffe.pyx:1249-1255
  | .omega_gamma => guardedD v .intFloat (-100) 100 (·.Omega0_gamma) fun x =>
      budgetD (fun p => x.add p.Omega0_m) <|
      storeD (fun p => DCosmo.balance { p with Omega0_gamma := x }) PyObj.freeAll
  -- coffe.pyx:1276-1282
  | .h => guardedD v .intFloat 0 100 (·.h) fun x =>
      storeD (fun p => DCosmo.balance { p with h := x }) PyObj.freeAll
  -- coffe.pyx:1298-1302
  | .w0 => guardedD v .intFloat (-100) 100 (·.w0) fun x => storeD (fun p => { p with w0 := x }) PyObj.freeAll
  -- coffe.pyx:1398-1402
  | .wa => guardedD v .intFloat (-100) 100 (·.wa) fun x => storeD (fun p => { p with wa := x }) PyObj.freeAll
  -- coffe.pyx:1414-1418
  | .n_s => guardedD v .intFloat (-100) 100 (·.n_s) fun x => storeD (fun p => { p with n_s := x }) PyObj.freeAll
  -- coffe.pyx:1430-1440
  | .sigma8 => guardedD v .intFloat (-100) 100 (·.sigma8) fun x =>
      storeD (fun p => { p with sigma8 := x }) PyObj.freeSpectral
  -- coffe.pyx:1452-1461
  | .A_s => checkedD v .intFloat (-100) 100 fun x => storeD (fun p => { p with A_s := x }) PyObj.freeSpectral
  -- coffe.pyx:1473-1477
  | .T_cmb => guardedD v .intFloat (-100) 100 (·.T_cmb) fun x => storeD (fun p => { p with T_cmb := x }) PyObj.freeAll
  -- coffe.pyx:1489-1493
  | .N_ur => guardedD v .intFloat (-100) 100 (·.N_ur) fun x => storeD (fun p => { p with N_ur := x }) PyObj.freeAll
  -- coffe.pyx:1506-1516; a division by zero raises after the mass is stored
  | .m_ncdm => guardedD v .intFloat (-100) 100 (·.m_ncdm) fun x s =>
      if s.par.h = .fin 0 then (.error .zeroDivision, ⟨{ s.par with m_ncdm := x }, s.obj⟩)
      else storeD (fun p => DCosmo.balance { p with
        m_ncdm := x
        Omega0_nu := ((x.div (.fin 93.14)).div p.h).div p.h
        Omega0_cdm := (p.Omega0_m.sub p.Omega0_baryon).sub (((x.div (.fin 93.14)).div p.h).div p.h) }) PyObj.freeAll s
  -- coffe.pyx:1527-1531
  | .YHe => guardedD v .intFloat (-100) 100 (·.YHe) fun x => storeD (fun p => { p with YHe := x }) PyObj.freeAll
  -- coffe.pyx:2472-2476
  | .integration_1d_prec => checkedD v .float 0 1 fun x => storeD (fun p => { p with integration_1d_prec := x }) PyObj.freeAll
  -- coffe.pyx:2904-2909
  | .k_min => checkedD v .intFloat 0 1e-3 fun x => storeD (fun p => { p with k_min := x }) PyObj.freeAll
  -- coffe.pyx:2921-2926
  | .k_max => checkedD v .intFloat 0.1 1e3 fun x => storeD (fun p => { p with k_max := x }) PyObj.freeAll

/-- Reading `object.name`. -/
def CName.read : CName → DCosmo → Dbl
  | .omega_cdm, p => p.Omega0_cdm
  | .omega_m, p => p.Omega0_m
  | .omega_baryon, p => p.Omega0_baryon
  | .omega_gamma, p => p.Omega0_gamma
  | .h, p => p.h
  | .w0, p => p.w0
  | .wa, p => p.wa
  | .n_s, p => p.n_s
  | .sigma8, p => p.sigma8
  | .A_s, p => p.A_s
  | .T_cmb, p => p.T_cmb
  | .N_ur, p => p.N_ur
  | .m_ncdm, p => p.m_ncdm
  | .YHe, p => p.YHe
  | .integration_1d_prec, p => p.integration_1d_prec
  | .k_min, p => p.k_min
  | .k_max, p => p.k_max

/-- The test of the list settings, `all(lo < _ and _ < hi for _ in temp)` with either comparison strict or not,
coffe.pyx:1574, 1615, 1997, 2033, 2071, 2351, 2387 and 2423. -/
def listTestD (strictLo strictHi : Bool) (lo hi : ℝ) (l : List Dbl) : Prop :=
  ∀ x ∈ l, (if strictLo then (Dbl.fin lo).lt x else (Dbl.fin lo).lt x ∨ x = .fin lo) ∧
    (if strictHi then x.lt (.fin hi) else x.lt (.fin hi) ∨ x = .fin hi)

end Coffe
