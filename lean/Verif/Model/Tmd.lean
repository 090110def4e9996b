import Verif.Model.HadCoeff

/-!
# Model of the transverse momentum distributions (include/sidis/tmd.hpp, src/tmd.cpp) and of the
structure functions computed from them (src/structure_function.cpp)

In exact real arithmetic. The members `x...` and `mean_...` of the C++ classes, one for each
distribution, are here functions of the name of the distribution.
-/

namespace Sidis

/-- The transverse momentum distributions of `class TmdSet` (tmd.hpp 55-80). -/
inductive TmdName where
  | f1 | f1Tperp | fT | fperp | fLperp | fTperp
  | g1 | g1Tperp | gT | gperp | gLperp | gTperp
  | h1 | h1perp | h1Lperp | h1Tperp | h | hL | hT | hTperp
  | e | eL | eT | eTperp
  deriving DecidableEq

/-- The fragmentation functions of `class TmdSet` (tmd.hpp 86-91). -/
inductive FfName where
  | D1 | H1perp | Dperp_tilde | H_tilde | Gperp_tilde | E_tilde
  deriving DecidableEq

/-- A user's `TmdSet` (tmd.hpp 27-93): the number of flavours, the target, the charge of each flavour,
`xf1(fl, x, Q_sq, k_perp_sq)` etc. and `D1(h, fl, z, Q_sq, p_perp_sq)` etc. -/
structure TmdSet where
  flavorCount : ℕ
  target : Nucleus
  charge : ℕ → ℝ
  tmd : TmdName → ℕ → ℝ → ℝ → ℝ → ℝ
  ff : FfName → Hadron → ℕ → ℝ → ℝ → ℝ → ℝ

/-- A Gaussian width: a number, or `none` for the `INF` that `GaussianWwTmdSet` uses for the
distributions to be neglected (tmd.cpp 560-608). Simplification: the widths −INF and NaN are left
out. -/
abbrev Width := Option ℝ

/-- `gaussian` (tmd.cpp 11-13). With an infinite width it is `exp(-0)/INF`, which is 0. -/
noncomputable def gaussian (k_perp_sq : ℝ) : Width → ℝ
  | some mean => Real.exp (-k_perp_sq / mean) / (Real.pi * mean)
  | none => 0

/-- A user's `GaussianTmdSet` (tmd.hpp 100-291): the widths and the reduced distributions
`xf1(fl, x, Q_sq)` etc. and `D1(h, fl, z, Q_sq)` etc. The constructors (tmd.cpp 111-238) copy
each argument to the width of the same name, for every flavour. -/
structure GaussianTmdSet where
  flavorCount : ℕ
  target : Nucleus
  charge : ℕ → ℝ
  meanTmd : TmdName → ℕ → Width
  meanFf : FfName → ℕ → Width
  tmd : TmdName → ℕ → ℝ → ℝ → ℝ
  ff : FfName → Hadron → ℕ → ℝ → ℝ → ℝ

/-- A `GaussianTmdSet` as the `TmdSet` it derives from: the overrides with a transverse momentum
(tmd.cpp 332-422). -/
noncomputable def GaussianTmdSet.toTmdSet (s : GaussianTmdSet) : TmdSet where
  flavorCount := s.flavorCount
  target := s.target
  charge := s.charge
  tmd n fl x Q_sq k_perp_sq := s.tmd n fl x Q_sq * gaussian k_perp_sq (s.meanTmd n fl)
  ff n h fl z Q_sq p_perp_sq := s.ff n h fl z Q_sq * gaussian p_perp_sq (s.meanFf n fl)

/-- A user's `WwTmdSet` (tmd.hpp 299-384): the base set of distributions, of the flavour, `x`, `Q_sq`
and `k_perp_sq`, and of fragmentation functions. -/
structure WwTmdSet where
  flavorCount : ℕ
  target : Nucleus
  charge : ℕ → ℝ
  (f1 f1Tperp g1 g1Tperp h1 h1perp h1Lperp h1Tperp : ℕ → ℝ → ℝ → ℝ → ℝ)
  (D1 H1perp : Hadron → ℕ → ℝ → ℝ → ℝ → ℝ)

/-- `xf1TperpM1`, ..., `xh1TperpM1` of `WwTmdSet` (tmd.cpp 457-476), of the base distribution. -/
noncomputable def WwTmdSet.m1 (s : WwTmdSet) (f : ℕ → ℝ → ℝ → ℝ → ℝ) (fl : ℕ)
    (x Q_sq k_perp_sq : ℝ) : ℝ :=
  let M : ℝ := s.target.mass
  k_perp_sq / (2 * M * M) * f fl x Q_sq k_perp_sq

/-- The distributions of `WwTmdSet` (tmd.cpp 425-448, 478-525). -/
noncomputable def WwTmdSet.tmd (s : WwTmdSet) : TmdName → ℕ → ℝ → ℝ → ℝ → ℝ
  | .f1 => s.f1
  | .f1Tperp => s.f1Tperp
  | .g1 => s.g1
  | .g1Tperp => s.g1Tperp
  | .h1 => s.h1
  | .h1perp => s.h1perp
  | .h1Lperp => s.h1Lperp
  | .h1Tperp => s.h1Tperp
  | .fT => fun fl x Q_sq k => -s.m1 s.f1Tperp fl x Q_sq k / x
  | .fperp => fun fl x Q_sq k => s.f1 fl x Q_sq k / x
  | .fLperp => fun _ _ _ _ => 0
  | .fTperp => fun fl x Q_sq k => s.f1Tperp fl x Q_sq k / x
  | .gT => fun fl x Q_sq k => s.m1 s.g1Tperp fl x Q_sq k / x
  | .gperp => fun _ _ _ _ => 0
  | .gLperp => fun fl x Q_sq k => s.g1 fl x Q_sq k / x
  | .gTperp => fun fl x Q_sq k => s.g1Tperp fl x Q_sq k / x
  | .h => fun fl x Q_sq k => -2 * s.m1 s.h1perp fl x Q_sq k / x
  | .hL => fun fl x Q_sq k => -2 * s.m1 s.h1Lperp fl x Q_sq k / x
  | .hT => fun fl x Q_sq k => -(s.h1 fl x Q_sq k + s.m1 s.h1Tperp fl x Q_sq k) / x
  | .hTperp => fun fl x Q_sq k => (s.h1 fl x Q_sq k - s.m1 s.h1Tperp fl x Q_sq k) / x
  | .e => fun _ _ _ _ => 0
  | .eL => fun _ _ _ _ => 0
  | .eT => fun _ _ _ _ => 0
  | .eTperp => fun _ _ _ _ => 0

/-- The fragmentation functions of `WwTmdSet` (tmd.cpp 450-455, 527-538). -/
def WwTmdSet.ff (s : WwTmdSet) : FfName → Hadron → ℕ → ℝ → ℝ → ℝ → ℝ
  | .D1 => s.D1
  | .H1perp => s.H1perp
  | .Dperp_tilde => fun _ _ _ _ _ => 0
  | .H_tilde => fun _ _ _ _ _ => 0
  | .Gperp_tilde => fun _ _ _ _ _ => 0
  | .E_tilde => fun _ _ _ _ _ => 0

/-- A `WwTmdSet` as the `TmdSet` it derives from. -/
noncomputable def WwTmdSet.toTmdSet (s : WwTmdSet) : TmdSet :=
  ⟨s.flavorCount, s.target, s.charge, s.tmd, s.ff⟩

/-- A user's `GaussianWwTmdSet` (tmd.hpp 396-509): the widths given to the constructor and the base
set of reduced distributions and fragmentation functions. The widths of the distributions that follow
from others may be infinite; simplification: the other widths are finite. -/
structure GaussianWwTmdSet where
  flavorCount : ℕ
  target : Nucleus
  charge : ℕ → ℝ
  (mean_f1 mean_f1Tperp mean_g1 mean_g1Tperp mean_h1 mean_h1perp mean_h1Lperp mean_h1Tperp
    mean_D1 mean_H1perp : ℕ → ℝ)
  (mean_fT mean_gT mean_h mean_hL mean_hT mean_hTperp : ℕ → Width)
  (f1 f1Tperp g1 g1Tperp h1 h1perp h1Lperp h1Tperp : ℕ → ℝ → ℝ → ℝ)
  (D1 H1perp : Hadron → ℕ → ℝ → ℝ → ℝ)

/-- The widths that the constructor of `GaussianWwTmdSet` gives to the distributions
(tmd.cpp 540-677; both constructors). -/
def GaussianWwTmdSet.meanTmd (s : GaussianWwTmdSet) : TmdName → ℕ → Width
  | .f1 => fun fl => some (s.mean_f1 fl)
  | .f1Tperp => fun fl => some (s.mean_f1Tperp fl)
  | .fT => s.mean_fT
  | .fperp => fun fl => some (s.mean_f1 fl)
  | .fLperp => fun _ => none
  | .fTperp => fun fl => some (s.mean_f1Tperp fl)
  | .g1 => fun fl => some (s.mean_g1 fl)
  | .g1Tperp => fun fl => some (s.mean_g1Tperp fl)
  | .gT => s.mean_gT
  | .gperp => fun _ => none
  | .gLperp => fun fl => some (s.mean_g1 fl)
  | .gTperp => fun fl => some (s.mean_g1Tperp fl)
  | .h1 => fun fl => some (s.mean_h1 fl)
  | .h1perp => fun fl => some (s.mean_h1perp fl)
  | .h1Lperp => fun fl => some (s.mean_h1Lperp fl)
  | .h1Tperp => fun fl => some (s.mean_h1Tperp fl)
  | .h => s.mean_h
  | .hL => s.mean_hL
  | .hT => s.mean_hT
  | .hTperp => s.mean_hTperp
  | .e => fun _ => none
  | .eL => fun _ => none
  | .eT => fun _ => none
  | .eTperp => fun _ => none

/-- The widths of the fragmentation functions, as above. -/
def GaussianWwTmdSet.meanFf (s : GaussianWwTmdSet) : FfName → ℕ → Width
  | .D1 => fun fl => some (s.mean_D1 fl)
  | .H1perp => fun fl => some (s.mean_H1perp fl)
  | .Dperp_tilde => fun _ => none
  | .H_tilde => fun _ => none
  | .Gperp_tilde => fun _ => none
  | .E_tilde => fun _ => none

/-- `xf1TperpM1`, ..., `xh1TperpM1` of `GaussianWwTmdSet` (tmd.cpp 715-734), of the width and the base
distribution. -/
noncomputable def GaussianWwTmdSet.m1 (s : GaussianWwTmdSet) (mean : ℕ → ℝ)
    (f : ℕ → ℝ → ℝ → ℝ) (fl : ℕ) (x Q_sq : ℝ) : ℝ :=
  let M : ℝ := s.target.mass
  mean fl / (2 * M * M) * f fl x Q_sq

/-- The reduced distributions of `GaussianWwTmdSet` (tmd.cpp 679-702, 736-783). -/
noncomputable def GaussianWwTmdSet.tmd (s : GaussianWwTmdSet) : TmdName → ℕ → ℝ → ℝ → ℝ
  | .f1 => s.f1
  | .f1Tperp => s.f1Tperp
  | .g1 => s.g1
  | .g1Tperp => s.g1Tperp
  | .h1 => s.h1
  | .h1perp => s.h1perp
  | .h1Lperp => s.h1Lperp
  | .h1Tperp => s.h1Tperp
  | .fT => fun fl x Q_sq => -s.m1 s.mean_f1Tperp s.f1Tperp fl x Q_sq / x
  | .fperp => fun fl x Q_sq => s.f1 fl x Q_sq / x
  | .fLperp => fun _ _ _ => 0
  | .fTperp => fun fl x Q_sq => s.f1Tperp fl x Q_sq / x
  | .gT => fun fl x Q_sq => s.m1 s.mean_g1Tperp s.g1Tperp fl x Q_sq / x
  | .gperp => fun _ _ _ => 0
  | .gLperp => fun fl x Q_sq => s.g1 fl x Q_sq / x
  | .gTperp => fun fl x Q_sq => s.g1Tperp fl x Q_sq / x
  | .h => fun fl x Q_sq => -2 * s.m1 s.mean_h1perp s.h1perp fl x Q_sq / x
  | .hL => fun fl x Q_sq => -2 * s.m1 s.mean_h1Lperp s.h1Lperp fl x Q_sq / x
  | .hT => fun fl x Q_sq =>
    -(s.h1 fl x Q_sq + s.m1 s.mean_h1Tperp s.h1Tperp fl x Q_sq) / x
  | .hTperp => fun fl x Q_sq =>
    (s.h1 fl x Q_sq - s.m1 s.mean_h1Tperp s.h1Tperp fl x Q_sq) / x
  | .e => fun _ _ _ => 0
  | .eL => fun _ _ _ => 0
  | .eT => fun _ _ _ => 0
  | .eTperp => fun _ _ _ => 0

/-- The reduced fragmentation functions of `GaussianWwTmdSet` (tmd.cpp 704-709, 785-796). -/
def GaussianWwTmdSet.ff (s : GaussianWwTmdSet) : FfName → Hadron → ℕ → ℝ → ℝ → ℝ
  | .D1 => s.D1
  | .H1perp => s.H1perp
  | .Dperp_tilde => fun _ _ _ _ => 0
  | .H_tilde => fun _ _ _ _ => 0
  | .Gperp_tilde => fun _ _ _ _ => 0
  | .E_tilde => fun _ _ _ _ => 0

/-- A `GaussianWwTmdSet` as the `GaussianTmdSet` it derives from. -/
noncomputable def GaussianWwTmdSet.toGaussian (s : GaussianWwTmdSet) : GaussianTmdSet :=
  ⟨s.flavorCount, s.target, s.charge, s.meanTmd, s.meanFf, s.tmd, s.ff⟩

/-! ### Convolutions -/

/-- `enum class Weight` (structure_function.cpp 51-60). -/
inductive Weight where
  | W0 | WA1 | WB1 | WA2 | WB2 | WAB2 | WC2 | W3
  deriving DecidableEq

/-- `cubature::cubature` in two dimensions (external library): of the integrand and the two corners
of the rectangle, the estimate of the integral. -/
abbrev Cubature2 := (ℝ × ℝ → ℝ) → ℝ × ℝ → ℝ × ℝ → ℝ

/-- The weight in the integrand of `convolve` (structure_function.cpp 75-110). -/
noncomputable def convolveWeight (w : Weight) (M mh z ph_t dot_k_perp k_perp_sq : ℝ) : ℝ :=
  let dot_p_perp := ph_t - z * dot_k_perp
  let dot_p_k_perp := ph_t * dot_k_perp - z * k_perp_sq
  match w with
  | .W0 => 1
  | .WA1 => dot_p_perp / (z * mh)
  | .WB1 => dot_k_perp / M
  | .WA2 => (2 * dot_p_perp * dot_k_perp) / (z * M * mh)
  | .WB2 => -dot_p_k_perp / (z * M * mh)
  | .WAB2 => (2 * dot_p_perp * dot_k_perp - dot_p_k_perp) / (z * M * mh)
  | .WC2 => (2 * sq dot_k_perp - k_perp_sq) / (2 * sq M)
  | .W3 => (4 * dot_p_perp * sq dot_k_perp - dot_k_perp * dot_p_k_perp - dot_p_perp * k_perp_sq)
      / (2 * z * sq M * mh)

/-- The integrand of `convolve` (structure_function.cpp 71-119) at `k_perp_polar`. -/
noncomputable def convolveIntegrand (s : TmdSet) (w : Weight) (tmd : TmdName) (ff : FfName)
    (target : Nucleus) (h : Hadron) (x z Q_sq ph_t_sq : ℝ) (k_perp_polar : ℝ × ℝ) : ℝ :=
  let ph_t := Real.sqrt ph_t_sq
  let M : ℝ := target.mass
  let mh : ℝ := h.mass
  let dot_k_perp := k_perp_polar.2 * Real.cos k_perp_polar.1
  let k_perp := k_perp_polar.2
  let k_perp_sq := sq k_perp
  let p_perp_sq := ph_t_sq + sq z * k_perp_sq - 2 * ph_t * z * dot_k_perp
  let jacobian := k_perp
  let weight := convolveWeight w M mh z ph_t dot_k_perp k_perp_sq
  let integrand := (List.range s.flavorCount).foldl (fun (r : ℝ) (fl : ℕ) =>
    r + sq (s.charge fl) * s.tmd tmd fl x Q_sq (sq k_perp) * s.ff ff h fl z Q_sq p_perp_sq) 0
  jacobian * weight * integrand

/-- `convolve` (structure_function.cpp 62-127). -/
noncomputable def convolve (cub : Cubature2) (s : TmdSet) (w : Weight) (tmd : TmdName) (ff : FfName)
    (target : Nucleus) (h : Hadron) (x z Q_sq ph_t_sq : ℝ) : ℝ :=
  cub (convolveIntegrand s w tmd ff target h x z Q_sq ph_t_sq) (0, 0) (2 * Real.pi, 10)

/-- The closed form of the weighted integral in `convolve_gaussian`
(structure_function.cpp 147-177). -/
noncomputable def gaussianWeight (w : Weight) (M mh z ph_t ph_t_sq mean_tmd mean_ff : ℝ) : ℝ :=
  let mean := mean_ff + sq z * mean_tmd
  match w with
  | .W0 => 1
  | .WA1 => (mean_ff * ph_t) / (mh * mean * z)
  | .WB1 => (mean_tmd * ph_t * z) / (M * mean)
  | .WA2 => (mean_tmd * mean_ff * (2 * ph_t_sq - mean)) / (M * mh * sq mean)
  | .WB2 => (mean_tmd * mean_ff * (mean - ph_t_sq)) / (M * mh * sq mean)
  | .WAB2 => (mean_tmd * mean_ff * ph_t_sq) / (M * mh * sq mean)
  | .WC2 => (sq mean_tmd * ph_t_sq * sq z) / (2 * sq M * sq mean)
  | .W3 => (sq mean_tmd * mean_ff * ph_t * ph_t_sq * z) / (2 * sq M * mh * mean * sq mean)

/-- `convolve_gaussian` (structure_function.cpp 129-185). The sum `mean` is infinite when one of the
widths is (for `z ≠ 0`). -/
noncomputable def convolveGaussian (s : GaussianTmdSet) (w : Weight) (tmd : TmdName) (ff : FfName)
    (target : Nucleus) (h : Hadron) (x z Q_sq ph_t_sq : ℝ) : ℝ :=
  let M : ℝ := target.mass
  let mh : ℝ := h.mass
  let ph_t := Real.sqrt ph_t_sq
  (List.range s.flavorCount).foldl (fun (result : ℝ) (fl : ℕ) =>
    match s.meanFf ff fl, s.meanTmd tmd fl with
    | some mean_ff, some mean_tmd =>
      let mean := mean_ff + sq z * mean_tmd
      let gaussian := Real.exp (-ph_t_sq / mean) / (Real.pi * mean)
      result + sq (s.charge fl) * gaussianWeight w M mh z ph_t ph_t_sq mean_tmd mean_ff * gaussian *
        s.tmd tmd fl x Q_sq * s.ff ff h fl z Q_sq
    | _, _ => result) 0

/-- What `CONVOLVE(weight, tmd, ff)` and `CONVOLVE_GAUSSIAN(weight, tmd, ff)` stand for in the body of a
structure function (structure_function.cpp 10-17, 26-32). -/
abbrev Conv := Weight → TmdName → FfName → ℝ

/-- `CONVOLVE_TILDE` and `CONVOLVE_GAUSSIAN_TILDE` (structure_function.cpp 18-24, 33-39). -/
noncomputable def tilde (c : Conv) (M mh x z Q_sq : ℝ) (w : Weight) (tmd : TmdName) (ff : FfName)
    (tmd_tilde : TmdName) (ff_tilde : FfName) (sign : ℝ) : ℝ :=
  (2 * M * x) / Real.sqrt Q_sq * c w tmd ff +
    sign * (2 * mh) / (z * Real.sqrt Q_sq) * c w tmd_tilde ff_tilde

/-- The values of the structure functions at one point. -/
@[ext] structure SfVals where
  (F_UUL F_UUT F_UU_cos_phih F_UU_cos_2phih F_UL_sin_phih F_UL_sin_2phih
    F_UTL_sin_phih_m_phis F_UTT_sin_phih_m_phis F_UT_sin_2phih_m_phis F_UT_sin_3phih_m_phis
    F_UT_sin_phis F_UT_sin_phih_p_phis F_LU_sin_phih F_LL F_LL_cos_phih F_LT_cos_phih_m_phis
    F_LT_cos_2phih_m_phis F_LT_cos_phis : ℝ)

/-- The functions of `TmdSfSet` (structure_function.cpp 361-433). -/
noncomputable def SfVals.full (c : Conv) (M mh x z Q_sq : ℝ) : SfVals where
  -- 363-365
  F_UUL := 0
  -- 366-368
  F_UUT := c .W0 .f1 .D1
  -- 369-372
  F_UU_cos_phih :=
    tilde c M mh x z Q_sq .WA1 .h .H1perp .f1 .Dperp_tilde 1 - tilde c M mh x z Q_sq .WB1 .fperp .D1 .h1perp .H_tilde 1
  -- 373-375
  F_UU_cos_2phih := c .WAB2 .h1perp .H1perp
  -- 377-380
  F_UL_sin_phih :=
    tilde c M mh x z Q_sq .WA1 .hL .H1perp .g1 .Gperp_tilde 1 + tilde c M mh x z Q_sq .WB1 .fLperp .D1 .h1Lperp .H_tilde (-1)
  -- 381-383
  F_UL_sin_2phih := c .WAB2 .h1Lperp .H1perp
  -- 385-387
  F_UTL_sin_phih_m_phis := 0
  -- 388-390
  F_UTT_sin_phih_m_phis := -c .WB1 .f1Tperp .D1
  -- 391-395
  F_UT_sin_2phih_m_phis :=
    1 / 2 * tilde c M mh x z Q_sq .WAB2 .hT .H1perp .g1Tperp .Gperp_tilde 1 + 1 / 2 * tilde c M mh x z Q_sq .WAB2 .hTperp .H1perp .f1Tperp .Dperp_tilde (-1)
    + tilde c M mh x z Q_sq .WC2 .fTperp .D1 .h1Tperp .H_tilde (-1)
  -- 396-398
  F_UT_sin_3phih_m_phis := c .W3 .h1Tperp .H1perp
  -- 399-403
  F_UT_sin_phis :=
    tilde c M mh x z Q_sq .W0 .fT .D1 .h1 .H_tilde (-1) - 1 / 2 * tilde c M mh x z Q_sq .WB2 .hT .H1perp .g1Tperp .Gperp_tilde 1
    + 1 / 2 * tilde c M mh x z Q_sq .WB2 .hTperp .H1perp .f1Tperp .Dperp_tilde (-1)
  -- 404-406
  F_UT_sin_phih_p_phis := c .WA1 .h1 .H1perp
  -- 408-411
  F_LU_sin_phih :=
    tilde c M mh x z Q_sq .WA1 .e .H1perp .f1 .Gperp_tilde 1 + tilde c M mh x z Q_sq .WB1 .gperp .D1 .h1perp .E_tilde 1
  -- 413-415
  F_LL := c .W0 .g1 .D1
  -- 416-419
  F_LL_cos_phih :=
    -tilde c M mh x z Q_sq .WA1 .eL .H1perp .g1 .Dperp_tilde (-1) - tilde c M mh x z Q_sq .WB1 .gLperp .D1 .h1Lperp .E_tilde 1
  -- 421-423
  F_LT_cos_phih_m_phis := c .WB1 .g1Tperp .D1
  -- 424-428
  F_LT_cos_2phih_m_phis :=
    -1 / 2 * tilde c M mh x z Q_sq .WAB2 .eT .H1perp .g1Tperp .Dperp_tilde (-1) + 1 / 2 * tilde c M mh x z Q_sq .WAB2 .eTperp .H1perp .f1Tperp .Gperp_tilde 1
    - tilde c M mh x z Q_sq .WC2 .gTperp .D1 .h1Tperp .E_tilde 1
  -- 429-433
  F_LT_cos_phis :=
    -tilde c M mh x z Q_sq .W0 .gT .D1 .h1 .E_tilde 1 + 1 / 2 * tilde c M mh x z Q_sq .WB2 .eT .H1perp .g1Tperp .Dperp_tilde (-1)
    + 1 / 2 * tilde c M mh x z Q_sq .WB2 .eTperp .H1perp .f1Tperp .Gperp_tilde 1

/-- The functions of `GaussianTmdSfSet` (structure_function.cpp 435-506). -/
noncomputable def SfVals.gaussian (c : Conv) (M mh x z Q_sq : ℝ) : SfVals where
  -- 436-438
  F_UUL := 0
  -- 439-441
  F_UUT := c .W0 .f1 .D1
  -- 442-445
  F_UU_cos_phih :=
    tilde c M mh x z Q_sq .WA1 .h .H1perp .f1 .Dperp_tilde 1 - tilde c M mh x z Q_sq .WB1 .fperp .D1 .h1perp .H_tilde 1
  -- 446-448
  F_UU_cos_2phih := c .WAB2 .h1perp .H1perp
  -- 450-453
  F_UL_sin_phih :=
    tilde c M mh x z Q_sq .WA1 .hL .H1perp .g1 .Gperp_tilde 1 + tilde c M mh x z Q_sq .WB1 .fLperp .D1 .h1Lperp .H_tilde (-1)
  -- 454-456
  F_UL_sin_2phih := c .WAB2 .h1Lperp .H1perp
  -- 458-460
  F_UTL_sin_phih_m_phis := 0
  -- 461-463
  F_UTT_sin_phih_m_phis := -c .WB1 .f1Tperp .D1
  -- 464-468
  F_UT_sin_2phih_m_phis :=
    1 / 2 * tilde c M mh x z Q_sq .WAB2 .hT .H1perp .g1Tperp .Gperp_tilde 1 + 1 / 2 * tilde c M mh x z Q_sq .WAB2 .hTperp .H1perp .f1Tperp .Dperp_tilde (-1)
    + tilde c M mh x z Q_sq .WC2 .fTperp .D1 .h1Tperp .H_tilde (-1)
  -- 469-471
  F_UT_sin_3phih_m_phis := c .W3 .h1Tperp .H1perp
  -- 472-476
  F_UT_sin_phis :=
    tilde c M mh x z Q_sq .W0 .fT .D1 .h1 .H_tilde (-1) - 1 / 2 * tilde c M mh x z Q_sq .WB2 .hT .H1perp .g1Tperp .Gperp_tilde 1
    + 1 / 2 * tilde c M mh x z Q_sq .WB2 .hTperp .H1perp .f1Tperp .Dperp_tilde (-1)
  -- 477-479
  F_UT_sin_phih_p_phis := c .WA1 .h1 .H1perp
  -- 481-484
  F_LU_sin_phih :=
    tilde c M mh x z Q_sq .WA1 .e .H1perp .f1 .Gperp_tilde 1 + tilde c M mh x z Q_sq .WB1 .gperp .D1 .h1perp .E_tilde 1
  -- 486-488
  F_LL := c .W0 .g1 .D1
  -- 489-492
  F_LL_cos_phih :=
    -tilde c M mh x z Q_sq .WA1 .eL .H1perp .g1 .Dperp_tilde (-1) - tilde c M mh x z Q_sq .WB1 .gLperp .D1 .h1Lperp .E_tilde 1
  -- 494-496
  F_LT_cos_phih_m_phis := c .WB1 .g1Tperp .D1
  -- 497-501
  F_LT_cos_2phih_m_phis :=
    -1 / 2 * tilde c M mh x z Q_sq .WAB2 .eT .H1perp .g1Tperp .Dperp_tilde (-1) + 1 / 2 * tilde c M mh x z Q_sq .WAB2 .eTperp .H1perp .f1Tperp .Gperp_tilde 1
    - tilde c M mh x z Q_sq .WC2 .gTperp .D1 .h1Tperp .E_tilde 1
  -- 502-506
  F_LT_cos_phis :=
    -tilde c M mh x z Q_sq .W0 .gT .D1 .h1 .E_tilde 1 + 1 / 2 * tilde c M mh x z Q_sq .WB2 .eT .H1perp .g1Tperp .Dperp_tilde (-1)
    + 1 / 2 * tilde c M mh x z Q_sq .WB2 .eTperp .H1perp .f1Tperp .Gperp_tilde 1

/-- The functions of `WwTmdSfSet` (structure_function.cpp 508-574). -/
noncomputable def SfVals.ww (c : Conv) (M mh x z Q_sq : ℝ) : SfVals where
  -- 509-511
  F_UUL := 0
  -- 512-514
  F_UUT := c .W0 .f1 .D1
  -- 515-518
  F_UU_cos_phih := (2 * M * x) / Real.sqrt Q_sq * (c .WA1 .h .H1perp - c .WB1 .fperp .D1)
  -- 519-521
  F_UU_cos_2phih := c .WAB2 .h1perp .H1perp
  -- 523-525
  F_UL_sin_phih := (2 * M * x) / Real.sqrt Q_sq * c .WA1 .hL .H1perp
  -- 526-528
  F_UL_sin_2phih := c .WAB2 .h1Lperp .H1perp
  -- 530-532
  F_UTL_sin_phih_m_phis := 0
  -- 533-535
  F_UTT_sin_phih_m_phis := -c .WB1 .f1Tperp .D1
  -- 536-541
  F_UT_sin_2phih_m_phis :=
    (2 * M * x) / Real.sqrt Q_sq * (1 / 2 * c .WAB2 .hT .H1perp + 1 / 2 * c .WAB2 .hTperp .H1perp
    + c .WC2 .fTperp .D1)
  -- 542-544
  F_UT_sin_3phih_m_phis := c .W3 .h1Tperp .H1perp
  -- 545-550
  F_UT_sin_phis :=
    (2 * M * x) / Real.sqrt Q_sq * (c .W0 .fT .D1 - 1 / 2 * c .WB2 .hT .H1perp + 1 / 2 * c .WB2 .hTperp .H1perp)
  -- 551-553
  F_UT_sin_phih_p_phis := c .WA1 .h1 .H1perp
  -- 555-557
  F_LU_sin_phih := 0
  -- 559-561
  F_LL := c .W0 .g1 .D1
  -- 562-564
  F_LL_cos_phih := -(2 * M * x) / Real.sqrt Q_sq * c .WB1 .gLperp .D1
  -- 566-568
  F_LT_cos_phih_m_phis := c .WB1 .g1Tperp .D1
  -- 569-571
  F_LT_cos_2phih_m_phis := -(2 * M * x) / Real.sqrt Q_sq * c .WC2 .gTperp .D1
  -- 572-574
  F_LT_cos_phis := -(2 * M * x) / Real.sqrt Q_sq * c .W0 .gT .D1

/-- The functions of `GaussianWwTmdSfSet` (structure_function.cpp 576-647). -/
noncomputable def SfVals.gaussianWw (c : Conv) (M mh x z Q_sq : ℝ) : SfVals where
  -- 577-579
  F_UUL := 0
  -- 580-582
  F_UUT := c .W0 .f1 .D1
  -- 583-586
  F_UU_cos_phih := (2 * M * x) / Real.sqrt Q_sq * (c .WA1 .h .H1perp - c .WB1 .fperp .D1)
  -- 587-589
  F_UU_cos_2phih := c .WAB2 .h1perp .H1perp
  -- 591-593
  F_UL_sin_phih := (2 * M * x) / Real.sqrt Q_sq * c .WA1 .hL .H1perp
  -- 594-596
  F_UL_sin_2phih := c .WAB2 .h1Lperp .H1perp
  -- 598-600
  F_UTL_sin_phih_m_phis := 0
  -- 601-603
  F_UTT_sin_phih_m_phis := -c .WB1 .f1Tperp .D1
  -- 604-614
  F_UT_sin_2phih_m_phis :=
    (2 * M * x) / Real.sqrt Q_sq * (1 / 2 * c .WAB2 .hT .H1perp + 1 / 2 * c .WAB2 .hTperp .H1perp
    + c .WC2 .fTperp .D1)
  -- 615-617
  F_UT_sin_3phih_m_phis := c .W3 .h1Tperp .H1perp
  -- 618-623
  F_UT_sin_phis :=
    (2 * M * x) / Real.sqrt Q_sq * (c .W0 .fT .D1 - 1 / 2 * c .WB2 .hT .H1perp + 1 / 2 * c .WB2 .hTperp .H1perp)
  -- 624-626
  F_UT_sin_phih_p_phis := c .WA1 .h1 .H1perp
  -- 628-630
  F_LU_sin_phih := 0
  -- 632-634
  F_LL := c .W0 .g1 .D1
  -- 635-637
  F_LL_cos_phih := -(2 * M * x) / Real.sqrt Q_sq * c .WB1 .gLperp .D1
  -- 639-641
  F_LT_cos_phih_m_phis := c .WB1 .g1Tperp .D1
  -- 642-644
  F_LT_cos_2phih_m_phis := -(2 * M * x) / Real.sqrt Q_sq * c .WC2 .gTperp .D1
  -- 645-647
  F_LT_cos_phis := -(2 * M * x) / Real.sqrt Q_sq * c .W0 .gT .D1


/-- `TmdSfSet` (include/sidis/structure_function.hpp 146-180): the structure functions at a point, with the
target of the `TmdSet`. -/
noncomputable def TmdSet.sf (cub : Cubature2) (s : TmdSet) (h : Hadron) (x z Q_sq ph_t_sq : ℝ) :
    SfVals :=
  .full (fun w t f => convolve cub s w t f s.target h x z Q_sq ph_t_sq) s.target.mass h.mass x z Q_sq

/-- `GaussianTmdSfSet` (include/sidis/structure_function.hpp 187-222). -/
noncomputable def GaussianTmdSet.sf (s : GaussianTmdSet) (h : Hadron) (x z Q_sq ph_t_sq : ℝ) :
    SfVals :=
  .gaussian (fun w t f => convolveGaussian s w t f s.target h x z Q_sq ph_t_sq) s.target.mass h.mass
    x z Q_sq

/-- `WwTmdSfSet` (include/sidis/structure_function.hpp 229-264). -/
noncomputable def WwTmdSet.sf (cub : Cubature2) (s : WwTmdSet) (h : Hadron) (x z Q_sq ph_t_sq : ℝ) :
    SfVals :=
  .ww (fun w t f => convolve cub s.toTmdSet w t f s.target h x z Q_sq ph_t_sq) s.target.mass h.mass
    x z Q_sq

/-- `GaussianWwTmdSfSet` (include/sidis/structure_function.hpp 272-308). -/
noncomputable def GaussianWwTmdSet.sf (s : GaussianWwTmdSet) (h : Hadron) (x z Q_sq ph_t_sq : ℝ) :
    SfVals :=
  .gaussianWw (fun w t f => convolveGaussian s.toGaussian w t f s.target h x z Q_sq ph_t_sq)
    s.target.mass h.mass x z Q_sq

end Sidis
