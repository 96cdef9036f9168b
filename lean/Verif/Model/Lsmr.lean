import Verif.Model.LeastSquares

/-!
# Model of `lsmrBase::Solve` (libs/hdd/3rd-party/lsqr-lsmr/lsmr.cpp:281-616)

Left out: printing, and the local reorthogonalization (`localSize` is 0, lsmr.cpp:58, and scrtdd does
not change it, so `localOrtho` is false).  The work vector `w` is never read.
-/

namespace Verif.LeastSquares

/-- The variables of `Solve` and the members it sets. -/
structure Lsmr (m n : Nat) (K : Type) where
  vec : Vectors m n K
  h : Fin n → K
  hbar : Fin n → K
  x : Fin n → K
  itn : Nat
  istop : Nat
  zetabar : K
  alphabar : K
  rho : K
  rhobar : K
  cbar : K
  sbar : K
  betadd : K
  betad : K
  rhodold : K
  tautildeold : K
  thetatilde : K
  zeta : K
  d : K
  normA2 : K
  maxrbar : K
  minrbar : K
  normb : K
  normA : K
  condA : K
  normr : K
  normAr : K
  normx : K

variable {K : Type} [Add K] [Sub K] [Mul K] [Div K] [Neg K] [Zero K] [One K] [BEq K] [LT K] [LE K]
  [DecidableLT K] [DecidableLE K] {m n : Nat}

namespace Lsmr

/-- lsmr.cpp:320-397: before the loop. `big` is the constant `1e+100`. The members set by the constructor
(lsmr.cpp:38-59) are `normA`, `condA` and `normx`. -/
def start (F : Fns K) (P : Products m n K) (big : K) (b : Fin m → K) : Lsmr m n K :=
  let s := firstVectors F P (scale (-1) (P.aprod1 (fun _ => 0) (scale (-1) b)))
  { vec := s, h := s.v, hbar := fun _ => 0, x := fun _ => 0, itn := 0, istop := 0, zetabar := s.alpha * s.beta,
    alphabar := s.alpha, rho := 1, rhobar := 1, cbar := 1, sbar := 0, betadd := s.beta, betad := 0, rhodold := 1,
    tautildeold := 0, thetatilde := 0, zeta := 0, d := 0, normA2 := s.alpha * s.alpha, maxrbar := 0, minrbar := big,
    normb := s.beta, normA := 0, condA := 0, normr := s.beta, normAr := s.alpha * s.beta, normx := 0 }

/-- lsmr.cpp:392-396 -/
def ctol (o : Settings K) : K := if 0 < o.conlim then 1 / o.conlim else 0

/-- lsmr.cpp:569-578: why the iteration stops (0: it goes on), last test first -/
def stopReason (o : Settings K) (itn : Nat) (test1 test2 test3 t1 rtol : K) : Nat :=
  if test1 ≤ rtol then 1
  else if test2 ≤ o.atol then 2
  else if test3 ≤ ctol o then 3
  else if 1 + t1 ≤ 1 then 4
  else if 1 + test2 ≤ 1 then 5
  else if 1 + test3 ≤ 1 then 6
  else if o.itnlim ≤ itn then 7
  else 0

/-- `std::max` -/
def cmax (a b : K) : K := if a < b then b else a

/-- `std::min` -/
def cmin (a b : K) : K := if b < a then b else a

/-- lsmr.cpp:420-578: one iteration -/
def iterate (F : Fns K) (P : Products m n K) (o : Settings K) (t : Lsmr m n K) : Lsmr m n K :=
  let itn := t.itn + 1
  let vec := nextVectors F P t.vec
  let alphahat := d2norm F t.alphabar o.damp
  let chat := t.alphabar / alphahat
  let shat := o.damp / alphahat
  let rho := d2norm F alphahat vec.beta
  let c := alphahat / rho
  let s := vec.beta / rho
  let thetanew := s * vec.alpha
  let alphabar := c * vec.alpha
  let thetabar := t.sbar * rho
  let rhotemp := t.cbar * rho
  let rhobar := d2norm F (t.cbar * rho) thetanew
  let cbar := t.cbar * rho / rhobar
  let sbar := thetanew / rhobar
  let zeta := cbar * t.zetabar
  let zetabar := -sbar * t.zetabar
  let hbar := fun i => t.h i - (thetabar * rho / (t.rho * t.rhobar)) * t.hbar i
  let x := fun i => t.x i + (zeta / (rho * rhobar)) * hbar i
  let h := fun i => vec.v i - (thetanew / rho) * t.h i
  let betaacute := chat * t.betadd
  let betacheck := -shat * t.betadd
  let betahat := c * betaacute
  let betadd := -s * betaacute
  let rhotildeold := d2norm F t.rhodold thetabar
  let ctildeold := t.rhodold / rhotildeold
  let stildeold := thetabar / rhotildeold
  let thetatilde := stildeold * rhobar
  let rhodold := ctildeold * rhobar
  let betad := -stildeold * t.betad + ctildeold * betahat
  let tautildeold := (t.zeta - t.thetatilde * t.tautildeold) / rhotildeold
  let taud := (zeta - thetatilde * tautildeold) / rhodold
  let d := t.d + betacheck * betacheck
  let normr := F.sqrt (d + (betad - taud) * (betad - taud) + betadd * betadd)
  let normA2 := t.normA2 + vec.beta * vec.beta
  let normA := F.sqrt normA2
  let normA2 := normA2 + vec.alpha * vec.alpha
  let maxrbar := cmax t.maxrbar t.rhobar
  let minrbar := if 1 < itn then cmin t.minrbar t.rhobar else t.minrbar
  let condA := cmax maxrbar rhotemp / cmin minrbar rhotemp
  let normAr := F.abs zetabar
  let normx := dnrm2 F x
  let test1 := normr / t.normb
  let test2 := normAr / (normA * normr)
  let test3 := 1 / condA
  let t1 := test1 / (1 + normA * normx / t.normb)
  let rtol := o.btol + o.atol * normA * normx / t.normb
  { vec := vec, h := h, hbar := hbar, x := x, itn := itn, istop := stopReason o itn test1 test2 test3 t1 rtol,
    zetabar := zetabar, alphabar := alphabar, rho := rho, rhobar := rhobar, cbar := cbar, sbar := sbar,
    betadd := betadd, betad := betad, rhodold := rhodold, tautildeold := tautildeold, thetatilde := thetatilde,
    zeta := zeta, d := d, normA2 := normA2, maxrbar := maxrbar, minrbar := minrbar, normb := t.normb, normA := normA,
    condA := condA, normr := normr, normAr := normAr, normx := normx }

/-- lsmr.cpp:419-613: the loop `do ... while (istop == 0)`; `none`: still running after `fuel` iterations -/
def loop (F : Fns K) (P : Products m n K) (o : Settings K) : Nat → Lsmr m n K → Option (Lsmr m n K)
  | 0, _ => none
  | fuel + 1, s =>
    let t := iterate F P o s
    if t.istop = 0 then loop F P o fuel t else some t

/-- lsmr.cpp:281-616 `Solve` of a fresh solver -/
def solve (F : Fns K) (P : Products m n K) (big : K) (o : Settings K) (b : Fin m → K) (fuel : Nat) :
    Option (Lsmr m n K) :=
  let s := start F P big b
  if s.normAr == 0 then some s else loop F P o fuel s

end Lsmr
end Verif.LeastSquares
