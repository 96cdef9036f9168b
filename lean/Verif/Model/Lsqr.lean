import Verif.Model.LeastSquares

/-!
# Model of `lsqrBase::Solve` (libs/hdd/3rd-party/lsqr-lsmr/lsqr.cpp:274-687)

Left out: printing (with it `alfopt`), and the standard errors (`wantse`, off unless asked for, and
never asked for by scrtdd).
-/

namespace Verif.LeastSquares

/-- The variables of `Solve` and the members it sets; `rho`, `gambar`, `gamma`, `test1`, `test2`, `test3`
and `rtol` are locals of the last iteration. -/
structure Lsqr (m n : Nat) (K : Type) where
  vec : Vectors m n K
  w : Fin n → K
  x : Fin n → K
  itn : Nat
  istop : Nat
  rhobar : K
  phibar : K
  psi : K
  bnorm : K
  Anorm : K
  Acond : K
  dnorm : K
  res2 : K
  xnorm : K
  xnorm1 : K
  cs2 : K
  sn2 : K
  z : K
  rnorm : K
  Arnorm : K
  rho : K
  gambar : K
  gamma : K
  test1 : K
  test2 : K
  test3 : K
  rtol : K

variable {K : Type} [Add K] [Sub K] [Mul K] [Div K] [Neg K] [Zero K] [One K] [BEq K] [LT K] [LE K]
  [DecidableLT K] [DecidableLE K] {m n : Nat}

namespace Lsqr

/-- lsqr.cpp:289-371: before the loop -/
def start (F : Fns K) (P : Products m n K) (b : Fin m → K) : Lsqr m n K :=
  let s := firstVectors F P b
  { vec := s, w := s.v, x := fun _ => 0, itn := 0, istop := 0, rhobar := s.alpha, phibar := s.beta, psi := 0,
    bnorm := s.beta, Anorm := 0, Acond := 0, dnorm := 0, res2 := 0, xnorm := 0, xnorm1 := 0, cs2 := -1, sn2 := 0,
    z := 0, rnorm := s.beta, Arnorm := s.alpha * s.beta, rho := 0, gambar := 0, gamma := 0, test1 := 0, test2 := 0,
    test3 := 0, rtol := 0 }

/-- lsqr.cpp:297-301 -/
def ctol (o : Settings K) : K := if 0 < o.conlim then 1 / o.conlim else 0

/-- lsqr.cpp:577-590: why the iteration stops (0: it goes on), last test first -/
def stopReason (o : Settings K) (itn : Nat) (test1 test2 test3 t1 rtol : K) : Nat :=
  if test1 ≤ rtol then 1
  else if test2 ≤ o.atol then 2
  else if test3 ≤ ctol o then 4
  else if 1 + t1 ≤ 1 then 1
  else if 1 + test2 ≤ 1 then 2
  else if 1 + test3 ≤ 1 then 4
  else if o.itnlim ≤ itn then 5
  else 0

/-- lsqr.cpp:458-467: the rotation that removes the damping: `rhbar1`, `psi`, `phibar` -/
def rotateDamp (F : Fns K) (o : Settings K) (s : Lsqr m n K) : K × K × K :=
  if 0 < o.damp then
    let rhbar1 := d2norm F s.rhobar o.damp
    let cs1 := s.rhobar / rhbar1
    let sn1 := o.damp / rhbar1
    (rhbar1, sn1 * s.phibar, cs1 * s.phibar)
  else (s.rhobar, s.psi, s.phibar)

/-- lsqr.cpp:419-650: one iteration. The convergence criteria have to be met once (`nconv = 1`,
lsqr.cpp:637-650), so `istop` is final. -/
def iterate (F : Fns K) (P : Products m n K) (o : Settings K) (s : Lsqr m n K) : Lsqr m n K :=
  let itn := s.itn + 1
  let vec := nextVectors F P s.vec
  let Anorm := d2norm F s.Anorm (d2norm F (d2norm F s.vec.alpha vec.beta) o.damp)
  let (rhbar1, psi, phibar) := rotateDamp F o s
  let rho := d2norm F rhbar1 vec.beta
  let cs := rhbar1 / rho
  let sn := vec.beta / rho
  let theta := sn * vec.alpha
  let rhobar := -cs * vec.alpha
  let phi := cs * phibar
  let phibar := sn * phibar
  let tau := sn * phi
  let t1 := phi / rho
  let t2 := -theta / rho
  let t3 := 1 / rho
  let x := fun i => t1 * s.w i + s.x i
  let w := fun i => t2 * s.w i + vec.v i
  let dknorm := F.sqrt ((List.ofFn s.w).foldl (fun a t => (t3 * t) * (t3 * t) + a) 0)
  let dnorm := d2norm F s.dnorm dknorm
  let delta := s.sn2 * rho
  let gambar := -s.cs2 * rho
  let rhs := phi - delta * s.z
  let zbar := rhs / gambar
  let xnorm := d2norm F s.xnorm1 zbar
  let gamma := d2norm F gambar theta
  let cs2 := gambar / gamma
  let sn2 := theta / gamma
  let z := rhs / gamma
  let xnorm1 := d2norm F s.xnorm1 z
  let Acond := Anorm * dnorm
  let res2 := d2norm F s.res2 psi
  let rnorm := d2norm F res2 phibar + F.tiny
  let Arnorm := vec.alpha * F.abs tau
  let test1 := rnorm / s.bnorm
  let test2 := Arnorm / (Anorm * rnorm)
  let test3 := 1 / Acond
  let t1 := test1 / (1 + Anorm * xnorm / s.bnorm)
  let rtol := o.btol + o.atol * Anorm * xnorm / s.bnorm
  { vec := vec, w := w, x := x, itn := itn, istop := stopReason o itn test1 test2 test3 t1 rtol, rhobar := rhobar,
    phibar := phibar, psi := psi, bnorm := s.bnorm, Anorm := Anorm, Acond := Acond, dnorm := dnorm, res2 := res2,
    xnorm := xnorm, xnorm1 := xnorm1, cs2 := cs2, sn2 := sn2, z := z, rnorm := rnorm, Arnorm := Arnorm, rho := rho,
    gambar := gambar, gamma := gamma, test1 := test1, test2 := test2, test3 := test3, rtol := rtol }

/-- lsqr.cpp:417-652: the loop `do ... while (istop == 0)`; `none`: still running after `fuel` iterations -/
def loop (F : Fns K) (P : Products m n K) (o : Settings K) : Nat → Lsqr m n K → Option (Lsqr m n K)
  | 0, _ => none
  | fuel + 1, s =>
    let t := iterate F P o s
    if t.istop = 0 then loop F P o fuel t else some t

/-- lsqr.cpp:690-697: a damped solution has its own stopping reason -/
def finish (o : Settings K) (s : Lsqr m n K) : Lsqr m n K :=
  if 0 < o.damp ∧ s.istop = 2 then { s with istop := 3 } else s

/-- lsqr.cpp:274-687 `Solve` -/
def solve (F : Fns K) (P : Products m n K) (o : Settings K) (b : Fin m → K) (fuel : Nat) : Option (Lsqr m n K) :=
  let s := start F P b
  if s.Arnorm == 0 then some (finish o s) else (loop F P o fuel s).map (finish o)

end Lsqr
end Verif.LeastSquares
