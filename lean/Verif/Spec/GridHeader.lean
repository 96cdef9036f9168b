import Verif.Model.GridHeader
import Verif.Spec.Number
import Mathlib.Data.List.SplitOn

/-!
# What a grid header says

A line is its words.  The keywords and their order are those of the NonLinLoc format.  What the text of a number
means is in `Spec/Number.lean`.
-/

namespace Verif.GridHeader
open Verif.Csv Verif.Decimal

/-- the words of a line: the parts between white space that are not empty -/
def words (line : Str) : List Str := (line.splitOnP PairFile.isSpace).filter (· ≠ [])

/-- at most `k` in size, or not a number -/
def Within (k : ℚ) (x : Num) : Prop := x = .nan ∨ ∃ q, x = .num q ∧ |q| ≤ k

/-- a count: a whole number below 2^64; a minus negates modulo 2^64 -/
def Count (s : Str) (n : Nat) : Prop :=
  ∃ neg m, NumberSpec.Whole s neg m ∧ m < 2 ^ 64 ∧ n = if neg then (2 ^ 64 - m) % 2 ^ 64 else m

/-- a whole number that fits in 64 bits -/
def Long (s : Str) (n : Int) : Prop :=
  ∃ neg m, NumberSpec.Whole s neg m ∧ (n = if neg then -(m : Int) else m) ∧ -2 ^ 63 ≤ n ∧ n < 2 ^ 63

/-- the first word of a transform line -/
def TransWord (w : Str) : Prop := w = "TRANSFORM".toList ∨ w = "TRANS".toList

/-- a known reference ellipsoid -/
def KnownEllipsoid (e : Str) : Prop := ∃ n ∈ ellipsoidNames, e = n.toList

/-- the end of a transverse Mercator line: three settings, of which the last ones may be missing -/
inductive MercTail (rnd : ℚ → ℚ) : List Str → Bool → Int → Num → Prop
  | none : MercTail rnd [] false 500000 (.num 1)
  | use {u : Str} {v : Num} (h : NumberSpec.Number rnd u v) :
      MercTail rnd ["UseFalseEasting".toList, u] (decide (v ≠ .num 0)) 500000 (.num 1)
  | easting {u f : Str} {v : Num} {n : Int} (h : NumberSpec.Number rnd u v) (hf : Long f n) :
      MercTail rnd ["UseFalseEasting".toList, u, "FalseEasting".toList, f] (decide (v ≠ .num 0)) n (.num 1)
  | scale {u f k : Str} {v x : Num} {n : Int} {rest : List Str} (h : NumberSpec.Number rnd u v) (hf : Long f n)
      (hk : NumberSpec.Number rnd k x) :
      MercTail rnd ("UseFalseEasting".toList :: u :: "FalseEasting".toList :: f :: "ScaleFactor".toList :: k :: rest)
        (decide (v ≠ .num 0)) n x

/-- A transform line and the transform it describes.  Words after the last setting are ignored. -/
inductive TransformLine (rnd : ℚ → ℚ) : List Str → Proj → Prop
  | global {w : Str} {rest : List Str} (hw : TransWord w) : TransformLine rnd (w :: "GLOBAL".toList :: rest) .global
  | simple {w a b c : Str} {rest : List Str} {lat lon rot : Num} (hw : TransWord w)
      (ha : NumberSpec.Number rnd a lat) (hb : NumberSpec.Number rnd b lon) (hc : NumberSpec.Number rnd c rot)
      (h1 : Within 90 lat) (h2 : Within 180 lon) (h3 : Within 360 rot) :
      TransformLine rnd (w :: "SIMPLE".toList :: "LatOrig".toList :: a :: "LongOrig".toList :: b :: "RotCW".toList :: c :: rest)
        (.simple lat lon rot)
  | sdc {w a b c : Str} {rest : List Str} {lat lon rot : Num} (hw : TransWord w)
      (ha : NumberSpec.Number rnd a lat) (hb : NumberSpec.Number rnd b lon) (hc : NumberSpec.Number rnd c rot)
      (h1 : Within 90 lat) (h2 : Within 180 lon) (h3 : Within 360 rot) :
      TransformLine rnd (w :: "SDC".toList :: "LatOrig".toList :: a :: "LongOrig".toList :: b :: "RotCW".toList :: c :: rest)
        (.sdc lat lon rot)
  | lambert {w e a b c d f : Str} {rest : List Str} {lat lon rot pha phb : Num} (hw : TransWord w) (he : KnownEllipsoid e)
      (ha : NumberSpec.Number rnd a lat) (hb : NumberSpec.Number rnd b lon) (hd : NumberSpec.Number rnd d pha) (hf : NumberSpec.Number rnd f phb)
      (hc : NumberSpec.Number rnd c rot) (h1 : Within 90 lat) (h2 : Within 180 lon) (h3 : Within 360 rot) (h4 : Within 90 pha)
      (h5 : Within 90 phb) :
      TransformLine rnd (w :: "LAMBERT".toList :: "RefEllipsoid".toList :: e :: "LatOrig".toList :: a :: "LongOrig".toList :: b ::
        "FirstStdParal".toList :: d :: "SecondStdParal".toList :: f :: "RotCW".toList :: c :: rest)
        (.lambert e lat lon rot pha phb)
  | transMerc {w e a b c : Str} {rest : List Str} {lat lon rot scale : Num} {use : Bool} {fe : Int} (hw : TransWord w)
      (he : KnownEllipsoid e) (ha : NumberSpec.Number rnd a lat) (hb : NumberSpec.Number rnd b lon) (hc : NumberSpec.Number rnd c rot)
      (ht : MercTail rnd rest use fe scale) (h1 : Within 90 lat) (h2 : Within 180 lon) (h3 : Within 360 rot) :
      TransformLine rnd (w :: "TRANS_MERC".toList :: "RefEllipsoid".toList :: e :: "LatOrig".toList :: a :: "LongOrig".toList :: b ::
        "RotCW".toList :: c :: rest) (.transMerc e lat lon rot use fe scale)
  | aziEqdist {w e a b c : Str} {rest : List Str} {lat lon rot : Num} (hw : TransWord w)
      (he : KnownEllipsoid e) (ha : NumberSpec.Number rnd a lat) (hb : NumberSpec.Number rnd b lon) (hc : NumberSpec.Number rnd c rot)
      (h1 : Within 90 lat) (h2 : Within 180 lon) (h3 : Within 360 rot) :
      TransformLine rnd (w :: "AZIMUTHAL_EQUIDIST".toList :: "RefEllipsoid".toList :: e :: "LatOrig".toList :: a ::
        "LongOrig".toList :: b :: "RotCW".toList :: c :: rest) (.aziEqdist e lat lon rot)

/-- a line starting with `TRANSFORM` or `TRANS` -/
def IsTrans (l : List Str) : Prop := ∃ w rest, l = w :: rest ∧ TransWord w

/-- the number of lines starting with `TRANSFORM` or `TRANS` -/
def transLines (ls : List (List Str)) : Nat :=
  ls.countP (fun l => decide (l.head? = some "TRANSFORM".toList) || decide (l.head? = some "TRANS".toList))

/-- a line of ten or eleven words -/
def IsDims (l : List Str) : Prop := l.length = 10 ∨ l.length = 11

/-- The line of the dimensions: number of nodes, origin and spacing along x, y and z, the type, and `DOUBLE` if the
values are doubles. -/
inductive DimsLine (rnd : ℚ → ℚ) : List Str → Dims → Prop
  | ten {a b c d e f g h i type : Str} {nx ny nz : Nat} {ox oy oz dx dy dz : Num}
      (ha : Count a nx) (hb : Count b ny) (hc : Count c nz)
      (hd : NumberSpec.Number rnd d ox) (he : NumberSpec.Number rnd e oy) (hf : NumberSpec.Number rnd f oz)
      (hg : NumberSpec.Number rnd g dx) (hh : NumberSpec.Number rnd h dy) (hi : NumberSpec.Number rnd i dz) :
      DimsLine rnd [a, b, c, d, e, f, g, h, i, type] ⟨nx, ny, nz, ox, oy, oz, dx, dy, dz, type, false⟩
  | eleven {a b c d e f g h i type w : Str} {nx ny nz : Nat} {ox oy oz dx dy dz : Num}
      (ha : Count a nx) (hb : Count b ny) (hc : Count c nz)
      (hd : NumberSpec.Number rnd d ox) (he : NumberSpec.Number rnd e oy) (hf : NumberSpec.Number rnd f oz)
      (hg : NumberSpec.Number rnd g dx) (hh : NumberSpec.Number rnd h dy) (hi : NumberSpec.Number rnd i dz) :
      DimsLine rnd [a, b, c, d, e, f, g, h, i, type, w] ⟨nx, ny, nz, ox, oy, oz, dx, dy, dz, type, decide (w = "DOUBLE".toList)⟩

/-- the line of the station: a label and the position -/
inductive SourceLine (rnd : ℚ → ℚ) : List Str → Source → Prop
  | mk {label a b c : Str} {x y z : Num} (ha : NumberSpec.Number rnd a x) (hb : NumberSpec.Number rnd b y) (hc : NumberSpec.Number rnd c z) :
      SourceLine rnd [label, a, b, c] ⟨label, x, y, z⟩

/-- The lines of a header and what they say.  The header of a velocity grid has the line of the dimensions and the
transform line, the header of a time or angle grid has the line of the station between them; other lines are
ignored.  There is one transform line. -/
inductive Describes (rnd : ℚ → ℚ) : Kind → List (List Str) → Dims → Option Source → Proj → Prop
  | velocity {A B C : List (List Str)} {ld lt : List Str} {d : Dims} {p : Proj}
      (hA : ∀ l ∈ A, ¬IsDims l ∧ ¬IsTrans l) (hd : DimsLine rnd ld d) (hB : ∀ l ∈ B, ¬IsTrans l)
      (ht : TransformLine rnd lt p) (hC : ∀ l ∈ C, ¬IsTrans l) :
      Describes rnd .velocity (A ++ ld :: (B ++ lt :: C)) d none p
  | station {kind : Kind} {A B C D : List (List Str)} {ld ls lt : List Str} {d : Dims} {s : Source} {p : Proj}
      (hk : kind = .time ∨ kind = .angle)
      (hA : ∀ l ∈ A, ¬IsDims l ∧ ¬IsTrans l) (hd : DimsLine rnd ld d)
      (hB : ∀ l ∈ B, l.length ≠ 4 ∧ ¬IsTrans l) (hs : SourceLine rnd ls s) (hC : ∀ l ∈ C, ¬IsTrans l)
      (ht : TransformLine rnd lt p) (hD : ∀ l ∈ D, ¬IsTrans l) :
      Describes rnd kind (A ++ ld :: (B ++ ls :: (C ++ lt :: D))) d (some s) p

/-- the spacing along x of a grid with one column is one, whatever the header says -/
def normalDims (d : Dims) : Dims := if d.numx = 1 then { d with dx := .num 1 } else d

/-- the header of a file -/
def HeaderOf (rnd : ℚ → ℚ) (kind : Kind) (swapBytes : Bool) (text : Str) (h : Header) : Prop :=
  ∃ d s p, Describes rnd kind ((lines text).map words) d s p ∧ ¬(d.useDouble = true ∧ swapBytes = true) ∧
    h = ⟨normalDims d, s, some p⟩

/-- the name of a time or angle file of a velocity model for P (`true`) or S waves -/
def FileName (model : Str) (p : Bool) (extension : String) (name : Str) : Prop :=
  ∃ station : Str, station ≠ [] ∧ (∀ c ∈ station, c ≠ '\n' ∧ c ≠ '\r') ∧
    name = model ++ (if p then ".P." else ".S.").toList ++ station ++ extension.toList

end Verif.GridHeader
