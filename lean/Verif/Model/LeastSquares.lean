/-!
# Model of the parts common to `lsqr.cpp` and `lsmr.cpp` (libs/hdd/3rd-party/lsqr-lsmr)

Numbers are any type with the operations used, with no laws assumed, so that what is proved without
laws also holds of floating-point numbers; `Verif.Proofs.Lsqr` uses real numbers.  Arrays of length `n`
are functions on `Fin n`.
-/

namespace Verif.LeastSquares

/-- The functions of `<cmath>` used, and the constant `1e-30`. -/
structure Fns (K : Type) where
  sqrt : K → K
  abs : K → K
  tiny : K

/-- The products `y += A x` and `x += Aᵀ y`, lsqr.h:92-106. -/
structure Products (m n : Nat) (K : Type) where
  aprod1 : (Fin n → K) → (Fin m → K) → (Fin m → K)
  aprod2 : (Fin n → K) → (Fin m → K) → (Fin n → K)

/-- The settings: `damp`, `atol`, `btol`, `conlim`, `itnlim`. -/
structure Settings (K : Type) where
  damp : K
  atol : K
  btol : K
  conlim : K
  itnlim : Nat

variable {K : Type} [Add K] [Sub K] [Mul K] [Div K] [Neg K] [Zero K] [One K] [BEq K] [LT K] [LE K]
  [DecidableLT K] [DecidableLE K] {m n : Nat}

/-- lsqr.cpp:202-217, lsmr.cpp:212-227 `D2Norm` -/
def d2norm (F : Fns K) (a b : K) : K :=
  let scale := F.abs a + F.abs b
  if scale == 0 then 0
  else
    let sa := a / scale
    let sb := b / scale
    scale * F.sqrt (sa * sa + sb * sb)

/-- lsqr.cpp:221-229, lsmr.cpp:231-239 `Scale` -/
def scale (factor : K) (x : Fin n → K) : Fin n → K := fun i => x i * factor

/-- loop body of lsqr.cpp:240-261, lsmr.cpp:248-269; the state is the largest magnitude and the scaled sum -/
def nrmStep (F : Fns K) (s : K × K) (xi : K) : K × K :=
  if xi == 0 then s
  else
    let absxi := F.abs xi
    if s.1 < absxi then
      let dx := s.1 / absxi
      (absxi, s.2 * (dx * dx) + 1)
    else
      let dx := absxi / s.1
      (s.1, s.2 + dx * dx)

/-- lsqr.cpp:233-266, lsmr.cpp:241-274 `Dnrm2` -/
def dnrm2 (F : Fns K) (x : Fin n → K) : K :=
  let s := (List.ofFn x).foldl (nrmStep F) (0, 1)
  s.1 * F.sqrt s.2

/-- The vectors of the bidiagonalization. -/
structure Vectors (m n : Nat) (K : Type) where
  alpha : K
  beta : K
  u : Fin m → K
  v : Fin n → K

/-- lsqr.cpp:326-351, lsmr.cpp:319-342: the first vectors. (`lsmr.cpp` first computes
`u = -(-b + A*0)`, lsmr.cpp:325-327.) -/
def firstVectors (F : Fns K) (P : Products m n K) (b : Fin m → K) : Vectors m n K :=
  let beta := dnrm2 F b
  if 0 < beta then
    let u := scale (1 / beta) b
    let v := P.aprod2 (fun _ => 0) u
    let alpha := dnrm2 F v
    if 0 < alpha then ⟨alpha, beta, u, scale (1 / alpha) v⟩ else ⟨alpha, beta, u, v⟩
  else ⟨0, beta, b, fun _ => 0⟩

/-- lsqr.cpp:427-452, lsmr.cpp:428-463 without local reorthogonalization: the next vectors. -/
def nextVectors (F : Fns K) (P : Products m n K) (s : Vectors m n K) : Vectors m n K :=
  let u := P.aprod1 s.v (scale (-s.alpha) s.u)
  let beta := dnrm2 F u
  if 0 < beta then
    let u := scale (1 / beta) u
    let v := P.aprod2 (scale (-beta) s.v) u
    let alpha := dnrm2 F v
    if 0 < alpha then ⟨alpha, beta, u, scale (1 / alpha) v⟩ else ⟨alpha, beta, u, v⟩
  else ⟨s.alpha, beta, u, s.v⟩

end Verif.LeastSquares
