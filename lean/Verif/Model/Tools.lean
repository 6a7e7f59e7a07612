import Verif.Base.Py

/-! # Model of `pvlib/tools.py` (trigonometric helpers) -/

noncomputable section
open Real
namespace Pvlib.Tools

/-- `tools.cosd`, pvlib/tools.py:15-30. -/
def cosd (a : Fl) : Fl := Fl.cos (Fl.radians a)
/-- `tools.sind`, pvlib/tools.py:33-48. -/
def sind (a : Fl) : Fl := Fl.sin (Fl.radians a)
/-- `tools.tand`, pvlib/tools.py:51-66. -/
def tand (a : Fl) : Fl := Fl.tan (Fl.radians a)
/-- `tools.asind`, pvlib/tools.py:69-84. -/
def asind (x : Fl) : Fl := Fl.degrees (Fl.arcsin x)
/-- `tools.acosd`, pvlib/tools.py:87-102. -/
def acosd (x : Fl) : Fl := Fl.degrees (Fl.arccos x)
/-- `tools.atand`, pvlib/tools.py:105-120. -/
def atand (x : Fl) : Fl := Fl.degrees (Fl.arctan x)

@[simp] theorem cosd_fin (a : ℝ) : cosd (Fl.fin a) = Fl.fin (Real.cos (a * (π / 180))) := rfl
@[simp] theorem sind_fin (a : ℝ) : sind (Fl.fin a) = Fl.fin (Real.sin (a * (π / 180))) := rfl
@[simp] theorem cosd_nan : cosd Fl.nan = Fl.nan := rfl
@[simp] theorem sind_nan : sind Fl.nan = Fl.nan := rfl
@[simp] theorem cosd_pinf : cosd Fl.pinf = Fl.nan := by
  simp [cosd, Fl.radians, Fl.infSign_pos (a := π / 180) (by positivity), Fl.cos]
@[simp] theorem cosd_ninf : cosd Fl.ninf = Fl.nan := by
  simp [cosd, Fl.radians, Fl.infSign_neg (a := -(π / 180)) (by simp; positivity), Fl.cos]
@[simp] theorem sind_pinf : sind Fl.pinf = Fl.nan := by
  simp [sind, Fl.radians, Fl.infSign_pos (a := π / 180) (by positivity), Fl.sin]
@[simp] theorem sind_ninf : sind Fl.ninf = Fl.nan := by
  simp [sind, Fl.radians, Fl.infSign_neg (a := -(π / 180)) (by simp; positivity), Fl.sin]
@[simp] theorem tand_nan : tand Fl.nan = Fl.nan := rfl
@[simp] theorem tand_fin {a : ℝ} (h : Real.cos (a * (π / 180)) ≠ 0) :
    tand (Fl.fin a) = Fl.fin (Real.tan (a * (π / 180))) := by simp [tand, h]

end Pvlib.Tools
end
