import Verif.Model.Num

/-
  gcodeutils/stretch/vector3.py.
-/

namespace GCodeUtils

variable {α : Type} [Field α] [LinearOrder α] [IsStrictOrderedRing α] [FloorRing α]

/-- vector3.py:43-50 `Vector3`. -/
structure Vec3 (α : Type) where
  x : α
  y : α
  z : α
  deriving DecidableEq, Repr

/-- A Python `complex`. -/
structure Cx (α : Type) where
  re : α
  im : α
  deriving DecidableEq, Repr

namespace Vec3

/-- vector3.py:47 `Vector3()`. -/
def zero : Vec3 α := ⟨0, 0, 0⟩
/-- vector3.py:58-60 `__add__`. -/
def add (a b : Vec3 α) : Vec3 α := ⟨a.x + b.x, a.y + b.y, a.z + b.z⟩
/-- vector3.py:167-169 `__sub__` -/
def sub (a b : Vec3 α) : Vec3 α := ⟨a.x - b.x, a.y - b.y, a.z - b.z⟩
/-- vector3.py:140-141 `__neg__`. -/
def neg (a : Vec3 α) : Vec3 α := ⟨-a.x, -a.y, -a.z⟩
/-- vector3.py:132-134, 158-160 `__mul__`, `__rmul__`. -/
def mul (a : Vec3 α) (k : α) : Vec3 α := ⟨a.x * k, a.y * k, a.z * k⟩
/-- vector3.py:171-174 `__truediv__` ; raises on zero. -/
def truediv (a : Vec3 α) (k : α) : Except Err (Vec3 α) :=
  if k = 0 then .error .zeroDivision else .ok ⟨a.x / k, a.y / k, a.z / k⟩
/-- vector3.py:82-84 `__floordiv__` on numbers; raises on zero. -/
def floordiv (a : Vec3 α) (k : α) : Except Err (Vec3 α) :=
  if k = 0 then .error .zeroDivision else .ok ⟨⌊a.x / k⌋, ⌊a.y / k⌋, ⌊a.z / k⌋⟩
/-- vector3.py:162-165 `__rtruediv__`. -/
def rtruediv (a : Vec3 α) (k : α) : Except Err (Vec3 α) :=
  if a.x = 0 ∨ a.y = 0 ∨ a.z = 0 then .error .zeroDivision else .ok ⟨k / a.x, k / a.y, k / a.z⟩
/-- vector3.py:74-80 `__eq__` on two vectors. -/
def eq (a b : Vec3 α) : Bool := decide (a.x = b.x) && decide (a.y = b.y) && decide (a.z = b.z)
/-- vector3.py:143-144 `__nonzero__` (Python 2 truth value). -/
def nonzero (a : Vec3 α) : Bool := decide (a.x ≠ 0) || decide (a.y ≠ 0) || decide (a.z ≠ 0)
/-- vector3.py:187-190 `cross`. -/
def cross (a b : Vec3 α) : Vec3 α :=
  ⟨a.y * b.z - a.z * b.y, -a.x * b.z + a.z * b.x, a.x * b.y - a.y * b.x⟩
/-- vector3.py:203-205 `dot`. -/
def dot (a b : Vec3 α) : α := a.x * b.x + a.y * b.y + a.z * b.z
/-- vector3.py:235-237 `magnitudeSquared`. -/
def magnitudeSquared (a : Vec3 α) : α := a.x * a.x + a.y * a.y + a.z * a.z
/-- vector3.py:52-56 `__abs__`, `magnitude`; `sqrt` is `math.sqrt`. -/
def magnitude (sqrt : α → α) (a : Vec3 α) : α := sqrt (a.x * a.x + a.y * a.y + a.z * a.z)
/-- vector3.py:196-201 `distanceSquared`. -/
def distanceSquared (a b : Vec3 α) : α :=
  (a.x - b.x) * (a.x - b.x) + (a.y - b.y) * (a.y - b.y) + (a.z - b.z) * (a.z - b.z)
/-- vector3.py:192-194 `distance`. -/
def distance (sqrt : α → α) (a b : Vec3 α) : α := sqrt (distanceSquared a b)
/-- vector3.py:207-214 `dropAxis(which)`; `None` (here `none`) for another axis number. -/
def dropAxis (a : Vec3 α) (which : ℕ := 2) : Option (Cx α) :=
  if which = 0 then some ⟨a.y, a.z⟩ else if which = 1 then some ⟨a.x, a.z⟩
  else if which = 2 then some ⟨a.x, a.y⟩ else none
/-- vector3.py:220-226 `getIsDefault`. -/
def getIsDefault (a : Vec3 α) : Bool :=
  if a.x ≠ 0 then false else if a.y ≠ 0 then false else decide (a.z = 0)
/-- vector3.py:228-233 `getNormalized` (with Python 3 division `__truediv__`; Python 2 uses `__div__`, the
same formula). -/
def getNormalized (sqrt : α → α) (a : Vec3 α) : Vec3 α :=
  let m := magnitude sqrt a
  if m = 0 then a else ⟨a.x / m, a.y / m, a.z / m⟩
/-- vector3.py:251-255 `normalize` (in place; `/=` with a non-zero number). -/
def normalize (sqrt : α → α) (a : Vec3 α) : Vec3 α :=
  let m := magnitude sqrt a
  if m ≠ 0 then ⟨a.x / m, a.y / m, a.z / m⟩ else a
/-- vector3.py:239-243 `maximize` with another vector. -/
def maximize (a b : Vec3 α) : Vec3 α := ⟨max b.x a.x, max b.y a.y, max b.z a.z⟩
/-- vector3.py:245-249 `minimize` with another vector. -/
def minimize (a b : Vec3 α) : Vec3 α := ⟨min b.x a.x, min b.y a.y, min b.z a.z⟩
/-- vector3.py:257-260 `reflect`. -/
def reflect (a n : Vec3 α) : Vec3 α :=
  let d := 2 * (a.x * n.x + a.y * n.y + a.z * n.z)
  ⟨a.x - d * n.x, a.y - d * n.y, a.z - d * n.z⟩

/-! In-place operators: three assignments one after the other; the operand is another vector (`some`) or the same object
(`none`), whose components are then read after the assignments made so far. -/

/-- The operand's components while `self` is being changed. -/
def operand (s : Vec3 α) (o : Option (Vec3 α)) : Vec3 α := o.getD s
/-- Three successive assignments `self.x = f(self.x, other.x)`, … -/
def assign (f : α → α → α) (s : Vec3 α) (o : Option (Vec3 α)) : Vec3 α :=
  let s := { s with x := f s.x (s.operand o).x }
  let s := { s with y := f s.y (s.operand o).y }
  { s with z := f s.z (s.operand o).z }
/-- vector3.py:90-95 `__iadd__`. -/
def iadd (s : Vec3 α) (o : Option (Vec3 α)) : Vec3 α := s.assign (· + ·) o
/-- vector3.py:118-123 `__isub__`. -/
def isub (s : Vec3 α) (o : Option (Vec3 α)) : Vec3 α := s.assign (· - ·) o
/-- vector3.py:239-243 `maximize`. -/
def imaximize (s : Vec3 α) (o : Option (Vec3 α)) : Vec3 α := s.assign (fun a b => max b a) o
/-- vector3.py:245-249 `minimize`. -/
def iminimize (s : Vec3 α) (o : Option (Vec3 α)) : Vec3 α := s.assign (fun a b => min b a) o
/-- vector3.py:262-266 `setToVector3`. -/
def setToVector3 (s : Vec3 α) (o : Option (Vec3 α)) : Vec3 α := s.assign (fun _ b => b) o
/-- vector3.py:111-116 `__imul__`. -/
def imul (s : Vec3 α) (k : α) : Vec3 α :=
  let s := { s with x := s.x * k }
  let s := { s with y := s.y * k }
  { s with z := s.z * k }
/-- vector3.py:125-130 `__itruediv__` (97-102 `__idiv__`); raises on zero before anything is assigned. -/
def itruediv (s : Vec3 α) (k : α) : Except Err (Vec3 α) :=
  if k = 0 then .error .zeroDivision
  else
    let s := { s with x := s.x / k }
    let s := { s with y := s.y / k }
    .ok { s with z := s.z / k }
/-- vector3.py:104-109 `__ifloordiv__`. -/
def ifloordiv (s : Vec3 α) (k : α) : Except Err (Vec3 α) :=
  if k = 0 then .error .zeroDivision
  else
    let s := { s with x := (⌊s.x / k⌋ : α) }
    let s := { s with y := (⌊s.y / k⌋ : α) }
    .ok { s with z := (⌊s.z / k⌋ : α) }

end Vec3

namespace Cx

/-- complex addition. -/
def add (a b : Cx α) : Cx α := ⟨a.re + b.re, a.im + b.im⟩
/-- complex subtraction. -/
def sub (a b : Cx α) : Cx α := ⟨a.re - b.re, a.im - b.im⟩
/-- complex times real. -/
def smul (k : α) (a : Cx α) : Cx α := ⟨k * a.re, k * a.im⟩
/-- `abs(complex)`; `sqrt` is the square root used. -/
def abs (sqrt : α → α) (a : Cx α) : α := sqrt (a.re * a.re + a.im * a.im)
/-- complex divided by real; raises on zero. -/
def div (a : Cx α) (k : α) : Except Err (Cx α) :=
  if k = 0 then .error .zeroDivision else .ok ⟨a.re / k, a.im / k⟩
/-- stretch.py:122-124 `dot_product`. -/
def dot (a b : Cx α) : α := a.re * b.re + a.im * b.im

end Cx

end GCodeUtils
