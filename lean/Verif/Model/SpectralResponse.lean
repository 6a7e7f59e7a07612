import Verif.Model.Spectrum

/-! # Model of `get_example_spectral_response` (`pvlib/spectrum/response.py`) -/

noncomputable section
open scoped Classical
namespace Pvlib.Spectrum
open Fl

/-- `SR_DATA`, pvlib/spectrum/response.py:52-64: wavelength (nm) and relative response. -/
def srData : List (ℝ × ℝ) :=
  [(290, 0), (350, 0.27), (400, 0.37), (500, 0.52), (650, 0.71), (800, 0.88), (900, 0.97), (950, 1), (1000, 0.93), (1050, 0.58), (1100, 0.21), (1150, 0.05), (1190, 0)]

/-- A cubic on the interval from `lo` to `hi`, in powers of `x - lo`. (Used for pvlib/spectrum/response.py:71-73.) -/
structure Cubic where
  (lo hi c0 c1 c2 c3 : ℝ)

/-- The value of the cubic (pvlib/spectrum/response.py:73). -/
def Cubic.eval (p : Cubic) (x : ℝ) : ℝ := p.c0 + p.c1 * (x - p.lo) + p.c2 * (x - p.lo) ^ 2 + p.c3 * (x - p.lo) ^ 3

/-- `make_interp_spline(x, y, k=3)`, pvlib/spectrum/response.py:69-71.  scipy solves for the cubic spline through the data with not-a-knot ends;
here is the solution in exact arithmetic (`Props/SpectralResponse` shows that it is the one and only such spline). -/
def srPieces : List Cubic :=
  [⟨290, 350, 0, 774893461 / 114665925000, -(629649059 / 13759911000000), 18642577 / 137599110000000⟩,
   ⟨350, 400, 27 / 100, 62605519 / 22933185000, -(294082673 / 13759911000000), 18642577 / 137599110000000⟩,
   ⟨400, 500, 37 / 100, 442739537 / 275198220000, -(7222009 / 6879955500000), -(1054171 / 2751982200000000)⟩,
   ⟨500, 650, 13 / 25, 5302791 / 3822197500, -(32050549 / 27519822000000), 3302063 / 1375991100000000⟩,
   ⟨650, 800, 71 / 100, 20013767 / 16678680000, -(1165991 / 13759911000000), -(9891911 / 4127973300000000)⟩,
   ⟨800, 900, 22 / 25, 9290587 / 9173274000, -(6401543 / 5503964400000), 968503 / 2751982200000000⟩,
   ⟨900, 950, 97 / 100, 217607689 / 275198220000, -(14551103 / 13759911000000), -(18968827 / 343997775000000)⟩,
   ⟨950, 1000, 1, 8299169 / 30577580000, -(25672813 / 2751982200000), -(82901491 / 171998887500000)⟩,
   ⟨1000, 1050, 93 / 100, -(1176853501 / 275198220000), -(1123181957 / 13759911000000), 62274653 / 114665925000000⟩,
   ⟨1050, 1100, 29 / 50, -(2302273661 / 275198220000), -(203473 / 1250901000000), 2913533 / 7478212500000⟩,
   ⟨1100, 1150, 21 / 100, -(500871653 / 91732740000), 160379381 / 2751982200000, -(143933 / 550396440000)⟩,
   ⟨1150, 1190, 1 / 20, -(438569899 / 275198220000), 52429631 / 2751982200000, -(143933 / 550396440000)⟩]

/-- `spline(wavelength)` inside the data, pvlib/spectrum/response.py:73. -/
def srSpline (x : ℝ) : ℝ := ((srPieces.find? fun p => x ≤ p.hi).map fun p => p.eval x).getD 0

/-- One value of `get_example_spectral_response`, pvlib/spectrum/response.py:69-74. -/
def exampleSrAt : Fl → Fl
  | nan => nan
  | fin x => if x < 290 ∨ x > 1190 then 0 else fin (srSpline x)
  | _ => 0

/-- `get_example_spectral_response`, pvlib/spectrum/response.py:20-80: index and values. -/
def exampleSr (wavelength : Option (List Fl)) : List (Fl × Fl) :=
  let w := match wavelength with
    | some w => w
    | none => (List.range 185).map fun (i : ℕ) => fin (280 + 5 * (i : ℝ))
  w.map fun x => (x, exampleSrAt x)

end Pvlib.Spectrum
end
