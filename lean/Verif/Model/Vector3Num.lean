import Verif.Model.Vector3
import Verif.Model.Report

/-
  gcodeutils/stretch/vector3.py with Python's two kinds of numbers and in both versions of the language: the operations whose
  outcome depends on them (division, truth value, text and hash), and the remaining methods.
-/

namespace GCodeUtils

variable {α : Type} [Field α] [LinearOrder α] [IsStrictOrderedRing α] [FloorRing α]

/-- The version of the language. -/
inductive Lang
  | py2
  | py3
  deriving DecidableEq, Repr

/-- A component of a `Vector3` (vector3.py:47-50): `Vector3(3, 4, 0)` has integers, `Vector3()` floats. Floats are exact. -/
inductive PyNum (α : Type)
  | int (n : ℤ)
  | flt (x : α)
  deriving DecidableEq, Repr

namespace PyNum

/-- The number, as `==` sees it. -/
def val : PyNum α → α
  | .int n => (n : α)
  | .flt x => x

/-- `a * b` (vector3.py:132-134): a float unless both are integers. -/
def mul : PyNum α → PyNum α → PyNum α
  | .int m, .int n => .int (m * n)
  | a, b => .flt (a.val * b.val)

/-- `operator.truediv(a, b)` (vector3.py:125-130, 162-165, 171-174). -/
def truediv (a b : PyNum α) : Except Err (PyNum α) := if b.val = 0 then .error .zeroDivision else .ok (.flt (a.val / b.val))

/-- `a // b` (vector3.py:82-84, 154-156). -/
def floordiv (a b : PyNum α) : Except Err (PyNum α) :=
  if b.val = 0 then .error .zeroDivision
  else match a, b with
    | .int m, .int n => .ok (.int (m.fdiv n))
    | a, b => .ok (.flt (⌊a.val / b.val⌋ : α))

/-- `a / b` in a file without `from __future__ import division` (vector3.py:70-72, 97-102, 146-148): in Python 2 integers are divided
like `//`. -/
def div : Lang → PyNum α → PyNum α → Except Err (PyNum α)
  | .py2, .int m, .int n => floordiv (.int m) (.int n)
  | _, a, b => truediv a b

/-- `'%s' % a` (vector3.py:150-152); `fmt` is the text of a float, which depends on the version. -/
def text (fmt : α → Str) : PyNum α → Str
  | .int n => intText n
  | .flt x => fmt x

/-- `float(a)` (vector3.py:216-218). -/
def toFloat (a : PyNum α) : PyNum α := .flt a.val

end PyNum

/-- vector3.py:43-50 `Vector3` with components of either kind. -/
structure NVec (α : Type) where
  x : PyNum α
  y : PyNum α
  z : PyNum α
  deriving DecidableEq, Repr

namespace NVec

/-- The vector of exact numbers of `Model/Vector3`. -/
def val (v : NVec α) : Vec3 α := ⟨v.x.val, v.y.val, v.z.val⟩

/-- Three components computed one after the other; the first error is raised. -/
def each (f : PyNum α → Except Err (PyNum α)) (v : NVec α) : Except Err (NVec α) := do
  let x ← f v.x
  let y ← f v.y
  let z ← f v.z
  .ok ⟨x, y, z⟩

/-- vector3.py:62-68 `__copy__`, `__pos__`, `copy`. -/
def copy (v : NVec α) : NVec α := ⟨v.x, v.y, v.z⟩

/-- vector3.py:132-134, 158-160 `__mul__`, `__rmul__`. -/
def mul (v : NVec α) (k : PyNum α) : NVec α := ⟨v.x.mul k, v.y.mul k, v.z.mul k⟩

/-- vector3.py:70-72 `__div__`. -/
def classicDiv (lang : Lang) (v : NVec α) (k : PyNum α) : Except Err (NVec α) := v.each (fun a => a.div lang k)

/-- vector3.py:171-174 `__truediv__`. -/
def truediv (v : NVec α) (k : PyNum α) : Except Err (NVec α) := v.each (fun a => a.truediv k)

/-- `v / k`: `__div__` (70-72) in Python 2, `__truediv__` (171-174) in Python 3. -/
def div : Lang → NVec α → PyNum α → Except Err (NVec α)
  | .py2, v, k => v.classicDiv .py2 k
  | .py3, v, k => v.truediv k

/-- vector3.py:82-84 `__floordiv__`. -/
def floordiv (v : NVec α) (k : PyNum α) : Except Err (NVec α) := v.each (fun a => a.floordiv k)

/-- vector3.py:97-102 `__idiv__` (Python 2) and 125-130 `__itruediv__` (Python 3): `v /= k`. The components are assigned one
after the other; the divisor is a number, so the first division already raises if any does. -/
def idiv (lang : Lang) (v : NVec α) (k : PyNum α) : Except Err (NVec α) := do
  let f : PyNum α → Except Err (PyNum α) := match lang with
    | .py2 => fun a => a.div .py2 k
    | .py3 => fun a => a.truediv k
  let x ← f v.x
  let v := { v with x := x }
  let y ← f v.y
  let v := { v with y := y }
  let z ← f v.z
  .ok { v with z := z }

/-- `k / v`: vector3.py:146-148 `__rdiv__` in Python 2, 162-165 `__rtruediv__` in Python 3. -/
def rdiv : Lang → PyNum α → NVec α → Except Err (NVec α)
  | .py2, k, v => v.each (fun a => k.div .py2 a)
  | .py3, k, v => v.each (fun a => k.truediv a)

/-- vector3.py:154-156 `__rfloordiv__`. -/
def rfloordiv (k : PyNum α) (v : NVec α) : Except Err (NVec α) := v.each (fun a => k.floordiv a)

/-- vector3.py:74-80 `__eq__` on two vectors. -/
def eq (a b : NVec α) : Bool := decide (a.x.val = b.x.val) && decide (a.y.val = b.y.val) && decide (a.z.val = b.z.val)

/-- vector3.py:136-138 `__ne__`. -/
def ne (a b : NVec α) : Bool := !(a.eq b)

/-- `bool(v)`: vector3.py:143-144 `__nonzero__` in Python 2; Python 3 does not know that name (it looks for `__bool__` and `__len__`), and
every object without them is true. -/
def truth : Lang → NVec α → Bool
  | .py2, v => decide (v.x.val ≠ 0) || decide (v.y.val ≠ 0) || decide (v.z.val ≠ 0)
  | .py3, _ => true

/-- vector3.py:150-152 `__repr__`. -/
def repr (fmt : α → Str) (v : NVec α) : Str := c!"(" ++ v.x.text fmt ++ c!", " ++ v.y.text fmt ++ c!", " ++ v.z.text fmt ++ c!")"

/-- vector3.py:86-88 `__hash__`; `h` is the hash of texts. -/
def hash {η : Type} (h : Str → η) (fmt : α → Str) (v : NVec α) : η := h (v.repr fmt)

/-- vector3.py:216-218 `getFloatList`. -/
def getFloatList (v : NVec α) : List (PyNum α) := [v.x.toFloat, v.y.toFloat, v.z.toFloat]

/-- vector3.py:228-233 `getNormalized`: `self / magnitude`, where `math.sqrt` gives a float. -/
def getNormalized (lang : Lang) (sqrt : α → α) (v : NVec α) : Except Err (NVec α) :=
  let m := v.val.magnitude sqrt
  if m = 0 then .ok v.copy else v.div lang (.flt m)

/-- vector3.py:176-180, 275 `_getAccessibleAttribute`. -/
def getAttribute (v : NVec α) (name : Str) : Option (PyNum α) :=
  if name = c!"x" then some v.x else if name = c!"y" then some v.y else if name = c!"z" then some v.z else none

/-- vector3.py:182-185, 276 `_setAccessibleAttribute`. -/
def setAttribute (v : NVec α) (name : Str) (a : PyNum α) : NVec α :=
  if name = c!"x" then { v with x := a } else if name = c!"y" then { v with y := a } else if name = c!"z" then { v with z := a } else v

/-- vector3.py:268-272 `setToXYZ`. -/
def setToXYZ (v : NVec α) (x y z : PyNum α) : NVec α :=
  let v := { v with x := x }
  let v := { v with y := y }
  { v with z := z }

end NVec

end GCodeUtils
