import Verif.Model.Kernel
/-!
# The kernels of `modalDG/kernels/expand1d.py` ... `expand6d.py`

Every kernel is one returned expression `t1 + t2 + ...`; the terms are listed in the order of the source, each
transcribed mechanically from its syntax tree.
-/

namespace Pgkyl.ModalDg

/-- expand1d.py:1-2, arguments f, x. -/
def expand1d1p : Option (List Expr) := some [
  .mul (.mul (.lit 1224744871391589 1000000000000000) (.coef 1)) (.var 0),
  .mul (.lit 7071067811865475 10000000000000000) (.coef 0)]

/-- expand1d.py:8-13, arguments f, x. -/
def expand1d2p : Option (List Expr) := some [
  .mul (.mul (.lit 2371708245126284 1000000000000000) (.coef 2)) (.xor (.var 0) (.sub (.lit 2 1) (.lit 3333333333333333 10000000000000000))),
  .mul (.mul (.lit 1224744871391589 1000000000000000) (.coef 1)) (.var 0),
  .mul (.lit 7071067811865475 10000000000000000) (.coef 0)]

/-- expand1d.py:19-25, arguments f, x. -/
def expand1d3p : Option (List Expr) := some [
  .mul (.mul (.lit 4677071733467426 1000000000000000) (.coef 3)) (.xor (.var 0) (.sub (.lit 3 1) (.mul (.lit 6 10) (.var 0)))),
  .mul (.mul (.lit 2371708245126284 1000000000000000) (.coef 2)) (.xor (.var 0) (.sub (.lit 2 1) (.lit 3333333333333333 10000000000000000))),
  .mul (.mul (.lit 1224744871391589 1000000000000000) (.coef 1)) (.var 0),
  .mul (.lit 7071067811865475 10000000000000000) (.coef 0)]

/-- expand1d.py:31-40, arguments f, x. -/
def expand1d4p : Option (List Expr) := some [
  .mul (.mul (.lit 9280776503073433 1000000000000000) (.coef 4)) (.xor (.var 0) (.sub (.sub (.lit 4 1) (.mul (.lit 8571428571428571 10000000000000000) (.xor (.var 0) (.sub (.lit 2 1) (.lit 3333333333333333 10000000000000000))))) (.lit 2 10))),
  .mul (.mul (.lit 4677071733467426 1000000000000000) (.coef 3)) (.xor (.var 0) (.sub (.lit 3 1) (.mul (.lit 6 10) (.var 0)))),
  .mul (.mul (.lit 2371708245126284 1000000000000000) (.coef 2)) (.xor (.var 0) (.sub (.lit 2 1) (.lit 3333333333333333 10000000000000000))),
  .mul (.mul (.lit 1224744871391589 1000000000000000) (.coef 1)) (.var 0),
  .mul (.lit 7071067811865475 10000000000000000) (.coef 0)]

/-- expand1d.py:45: `expand_1d`. -/
def expand_1d : List (Option (List Expr)) := [expand1d1p, expand1d2p, expand1d3p, expand1d4p]

/-- expand2d.py:1-7, arguments f, x, y. -/
def expand2d1p : Option (List Expr) := some [
  .mul (.mul (.mul (.lit 15 10) (.coef 3)) (.var 0)) (.var 1),
  .mul (.mul (.lit 8660254037844386 10000000000000000) (.coef 2)) (.var 1),
  .mul (.mul (.lit 8660254037844386 10000000000000000) (.coef 1)) (.var 0),
  .mul (.lit 5 10) (.coef 0)]

/-- expand2d.py:13-23, arguments f, x, y. -/
def expand2d2p : Option (List Expr) := some [
  .mul (.mul (.lit 2904737509655563 1000000000000000) (.coef 7)) (.sub (.mul (.var 0) (.pow (.var 1) 2)) (.mul (.lit 3333333333333333 10000000000000000) (.var 0))),
  .mul (.mul (.lit 1677050983124842 1000000000000000) (.coef 5)) (.sub (.pow (.var 1) 2) (.lit 3333333333333333 10000000000000000)),
  .mul (.mul (.lit 2904737509655563 1000000000000000) (.coef 6)) (.sub (.mul (.pow (.var 0) 2) (.var 1)) (.mul (.lit 3333333333333333 10000000000000000) (.var 1))),
  .mul (.mul (.mul (.lit 15 10) (.coef 3)) (.var 0)) (.var 1),
  .mul (.mul (.lit 8660254037844386 10000000000000000) (.coef 2)) (.var 1),
  .mul (.mul (.lit 1677050983124842 1000000000000000) (.coef 4)) (.sub (.pow (.var 0) 2) (.lit 3333333333333333 10000000000000000)),
  .mul (.mul (.lit 8660254037844386 10000000000000000) (.coef 1)) (.var 0),
  .mul (.lit 5 10) (.coef 0)]

/-- expand2d.py:29-43, arguments f, x, y. -/
def expand2d3p : Option (List Expr) := some [
  .mul (.mul (.lit 57282196186948 10000000000000) (.coef 11)) (.sub (.mul (.var 0) (.pow (.var 1) 3)) (.mul (.mul (.lit 6 10) (.var 0)) (.var 1))),
  .mul (.mul (.lit 3307189138830738 1000000000000000) (.coef 9)) (.sub (.pow (.var 1) 3) (.mul (.lit 6 10) (.var 1))),
  .mul (.mul (.lit 2904737509655563 1000000000000000) (.coef 7)) (.sub (.mul (.var 0) (.pow (.var 1) 2)) (.mul (.lit 3333333333333333 10000000000000000) (.var 0))),
  .mul (.mul (.lit 1677050983124842 1000000000000000) (.coef 5)) (.sub (.pow (.var 1) 2) (.lit 3333333333333333 10000000000000000)),
  .mul (.mul (.lit 57282196186948 10000000000000) (.coef 10)) (.sub (.mul (.pow (.var 0) 3) (.var 1)) (.mul (.mul (.lit 6 10) (.var 0)) (.var 1))),
  .mul (.mul (.lit 2904737509655563 1000000000000000) (.coef 6)) (.sub (.mul (.pow (.var 0) 2) (.var 1)) (.mul (.lit 3333333333333333 10000000000000000) (.var 1))),
  .mul (.mul (.mul (.lit 15 10) (.coef 3)) (.var 0)) (.var 1),
  .mul (.mul (.lit 8660254037844386 10000000000000000) (.coef 2)) (.var 1),
  .mul (.mul (.lit 3307189138830738 1000000000000000) (.coef 8)) (.sub (.pow (.var 0) 3) (.mul (.lit 6 10) (.var 0))),
  .mul (.mul (.lit 1677050983124842 1000000000000000) (.coef 4)) (.sub (.pow (.var 0) 2) (.lit 3333333333333333 10000000000000000)),
  .mul (.mul (.lit 8660254037844386 10000000000000000) (.coef 1)) (.var 0),
  .mul (.lit 5 10) (.coef 0)]

/-- expand2d.py:49-83, arguments f, x, y. -/
def expand2d4p : Option (List Expr) := some [
  .mul (.mul (.lit 1136658342467076 100000000000000) (.coef 16)) (.sub (.sub (.mul (.var 0) (.pow (.var 1) 4)) (.mul (.lit 8571428571428571 10000000000000000) (.sub (.mul (.var 0) (.pow (.var 1) 2)) (.mul (.lit 3333333333333333 10000000000000000) (.var 0))))) (.mul (.lit 2 10) (.var 0))),
  .mul (.mul (.lit 65625 10000) (.coef 14)) (.sub (.sub (.pow (.var 1) 4) (.mul (.lit 8571428571428571 10000000000000000) (.sub (.pow (.var 1) 2) (.lit 3333333333333333 10000000000000000)))) (.lit 2 10)),
  .mul (.mul (.lit 57282196186948 10000000000000) (.coef 12)) (.sub (.mul (.var 0) (.pow (.var 1) 3)) (.mul (.mul (.lit 6 10) (.var 0)) (.var 1))),
  .mul (.mul (.lit 3307189138830738 1000000000000000) (.coef 9)) (.sub (.pow (.var 1) 3) (.mul (.lit 6 10) (.var 1))),
  .mul (.mul (.lit 5625 1000) (.coef 10)) (.sub (.sub (.sub (.mul (.pow (.var 0) 2) (.pow (.var 1) 2)) (.mul (.lit 3333333333333333 10000000000000000) (.sub (.pow (.var 1) 2) (.lit 3333333333333333 10000000000000000)))) (.mul (.lit 3333333333333333 10000000000000000) (.sub (.pow (.var 0) 2) (.lit 3333333333333333 10000000000000000)))) (.lit 1111111111111111 10000000000000000)),
  .mul (.mul (.lit 2904737509655563 1000000000000000) (.coef 7)) (.sub (.mul (.var 0) (.pow (.var 1) 2)) (.mul (.lit 3333333333333333 10000000000000000) (.var 0))),
  .mul (.mul (.lit 1677050983124842 1000000000000000) (.coef 5)) (.sub (.pow (.var 1) 2) (.lit 3333333333333333 10000000000000000)),
  .mul (.mul (.lit 1136658342467076 100000000000000) (.coef 15)) (.sub (.add (.mul (.neg (.lit 8571428571428571 10000000000000000)) (.sub (.mul (.pow (.var 0) 2) (.var 1)) (.mul (.lit 3333333333333333 10000000000000000) (.var 1)))) (.mul (.pow (.var 0) 4) (.var 1))) (.mul (.lit 2 10) (.var 1))),
  .mul (.mul (.lit 57282196186948 10000000000000) (.coef 11)) (.sub (.mul (.pow (.var 0) 3) (.var 1)) (.mul (.mul (.lit 6 10) (.var 0)) (.var 1))),
  .mul (.mul (.lit 2904737509655563 1000000000000000) (.coef 6)) (.sub (.mul (.pow (.var 0) 2) (.var 1)) (.mul (.lit 3333333333333333 10000000000000000) (.var 1))),
  .mul (.mul (.mul (.lit 15 10) (.coef 3)) (.var 0)) (.var 1),
  .mul (.mul (.lit 8660254037844386 10000000000000000) (.coef 2)) (.var 1),
  .mul (.mul (.lit 65625 10000) (.coef 13)) (.sub (.sub (.pow (.var 0) 4) (.mul (.lit 8571428571428571 10000000000000000) (.sub (.pow (.var 0) 2) (.lit 3333333333333333 10000000000000000)))) (.lit 2 10)),
  .mul (.mul (.lit 3307189138830738 1000000000000000) (.coef 8)) (.sub (.pow (.var 0) 3) (.mul (.lit 6 10) (.var 0))),
  .mul (.mul (.lit 1677050983124842 1000000000000000) (.coef 4)) (.sub (.pow (.var 0) 2) (.lit 3333333333333333 10000000000000000)),
  .mul (.mul (.lit 8660254037844386 10000000000000000) (.coef 1)) (.var 0),
  .mul (.lit 5 10) (.coef 0)]

/-- expand2d.py:86: `expand_2d`. -/
def expand_2d : List (Option (List Expr)) := [expand2d1p, expand2d2p, expand2d3p, expand2d4p]

/-- expand3d.py:1-11, arguments f, x, y, z. -/
def expand3d1p : Option (List Expr) := some [
  .mul (.mul (.mul (.mul (.lit 1837117307087383 1000000000000000) (.coef 7)) (.var 0)) (.var 1)) (.var 2),
  .mul (.mul (.mul (.lit 1060660171779821 1000000000000000) (.coef 6)) (.var 1)) (.var 2),
  .mul (.mul (.mul (.lit 1060660171779821 1000000000000000) (.coef 5)) (.var 0)) (.var 2),
  .mul (.mul (.lit 6123724356957944 10000000000000000) (.coef 3)) (.var 2),
  .mul (.mul (.mul (.lit 1060660171779821 1000000000000000) (.coef 4)) (.var 0)) (.var 1),
  .mul (.mul (.lit 6123724356957944 10000000000000000) (.coef 2)) (.var 1),
  .mul (.mul (.lit 6123724356957944 10000000000000000) (.coef 1)) (.var 0),
  .mul (.lit 3535533905932737 10000000000000000) (.coef 0)]

/-- expand3d.py:17-39, arguments f, x, y, z. -/
def expand3d2p : Option (List Expr) := some [
  .mul (.mul (.lit 3557562367689425 1000000000000000) (.coef 19)) (.sub (.mul (.mul (.var 0) (.var 1)) (.pow (.var 2) 2)) (.mul (.mul (.lit 3333333333333333 10000000000000000) (.var 0)) (.var 1))),
  .mul (.mul (.lit 2053959590644372 1000000000000000) (.coef 16)) (.sub (.mul (.var 1) (.pow (.var 2) 2)) (.mul (.lit 3333333333333333 10000000000000000) (.var 1))),
  .mul (.mul (.lit 2053959590644372 1000000000000000) (.coef 15)) (.sub (.mul (.var 0) (.pow (.var 2) 2)) (.mul (.lit 3333333333333333 10000000000000000) (.var 0))),
  .mul (.mul (.lit 1185854122563142 1000000000000000) (.coef 9)) (.sub (.pow (.var 2) 2) (.lit 3333333333333333 10000000000000000)),
  .mul (.mul (.lit 3557562367689425 1000000000000000) (.coef 18)) (.sub (.mul (.mul (.var 0) (.pow (.var 1) 2)) (.var 2)) (.mul (.mul (.lit 3333333333333333 10000000000000000) (.var 0)) (.var 2))),
  .mul (.mul (.lit 2053959590644372 1000000000000000) (.coef 14)) (.sub (.mul (.pow (.var 1) 2) (.var 2)) (.mul (.lit 3333333333333333 10000000000000000) (.var 2))),
  .mul (.mul (.lit 3557562367689425 1000000000000000) (.coef 17)) (.sub (.mul (.mul (.pow (.var 0) 2) (.var 1)) (.var 2)) (.mul (.mul (.lit 3333333333333333 10000000000000000) (.var 1)) (.var 2))),
  .mul (.mul (.lit 2053959590644372 1000000000000000) (.coef 13)) (.sub (.mul (.pow (.var 0) 2) (.var 2)) (.mul (.lit 3333333333333333 10000000000000000) (.var 2))),
  .mul (.mul (.mul (.mul (.lit 1837117307087383 1000000000000000) (.coef 10)) (.var 0)) (.var 1)) (.var 2),
  .mul (.mul (.mul (.lit 1060660171779821 1000000000000000) (.coef 6)) (.var 1)) (.var 2),
  .mul (.mul (.mul (.lit 1060660171779821 1000000000000000) (.coef 5)) (.var 0)) (.var 2),
  .mul (.mul (.lit 6123724356957944 10000000000000000) (.coef 3)) (.var 2),
  .mul (.mul (.lit 2053959590644372 1000000000000000) (.coef 12)) (.sub (.mul (.var 0) (.pow (.var 1) 2)) (.mul (.lit 3333333333333333 10000000000000000) (.var 0))),
  .mul (.mul (.lit 1185854122563142 1000000000000000) (.coef 8)) (.sub (.pow (.var 1) 2) (.lit 3333333333333333 10000000000000000)),
  .mul (.mul (.lit 2053959590644372 1000000000000000) (.coef 11)) (.sub (.mul (.pow (.var 0) 2) (.var 1)) (.mul (.lit 3333333333333333 10000000000000000) (.var 1))),
  .mul (.mul (.mul (.lit 1060660171779821 1000000000000000) (.coef 4)) (.var 0)) (.var 1),
  .mul (.mul (.lit 6123724356957944 10000000000000000) (.coef 2)) (.var 1),
  .mul (.mul (.lit 1185854122563142 1000000000000000) (.coef 7)) (.sub (.pow (.var 0) 2) (.lit 3333333333333333 10000000000000000)),
  .mul (.mul (.lit 6123724356957944 10000000000000000) (.coef 1)) (.var 0),
  .mul (.lit 3535533905932737 10000000000000000) (.coef 0)]

/-- expand3d.py:45-79, arguments f, x, y, z. -/
def expand3d3p : Option (List Expr) := some [
  .mul (.mul (.lit 7015607600201137 1000000000000000) (.coef 31)) (.sub (.mul (.mul (.var 0) (.var 1)) (.pow (.var 2) 3)) (.mul (.mul (.mul (.lit 6 10) (.var 0)) (.var 1)) (.var 2))),
  .mul (.mul (.lit 4050462936504911 1000000000000000) (.coef 28)) (.sub (.mul (.var 1) (.pow (.var 2) 3)) (.mul (.mul (.lit 6 10) (.var 1)) (.var 2))),
  .mul (.mul (.lit 4050462936504911 1000000000000000) (.coef 27)) (.sub (.mul (.var 0) (.pow (.var 2) 3)) (.mul (.mul (.lit 6 10) (.var 0)) (.var 2))),
  .mul (.mul (.lit 2338535866733713 1000000000000000) (.coef 19)) (.sub (.pow (.var 2) 3) (.mul (.lit 6 10) (.var 2))),
  .mul (.mul (.lit 3557562367689425 1000000000000000) (.coef 22)) (.sub (.mul (.mul (.var 0) (.var 1)) (.pow (.var 2) 2)) (.mul (.mul (.lit 3333333333333333 10000000000000000) (.var 0)) (.var 1))),
  .mul (.mul (.lit 2053959590644372 1000000000000000) (.coef 16)) (.sub (.mul (.var 1) (.pow (.var 2) 2)) (.mul (.lit 3333333333333333 10000000000000000) (.var 1))),
  .mul (.mul (.lit 2053959590644372 1000000000000000) (.coef 15)) (.sub (.mul (.var 0) (.pow (.var 2) 2)) (.mul (.lit 3333333333333333 10000000000000000) (.var 0))),
  .mul (.mul (.lit 1185854122563142 1000000000000000) (.coef 9)) (.sub (.pow (.var 2) 2) (.lit 3333333333333333 10000000000000000)),
  .mul (.mul (.lit 7015607600201137 1000000000000000) (.coef 30)) (.sub (.mul (.mul (.var 0) (.pow (.var 1) 3)) (.var 2)) (.mul (.mul (.mul (.lit 6 10) (.var 0)) (.var 1)) (.var 2))),
  .mul (.mul (.lit 4050462936504911 1000000000000000) (.coef 26)) (.sub (.mul (.pow (.var 1) 3) (.var 2)) (.mul (.mul (.lit 6 10) (.var 1)) (.var 2))),
  .mul (.mul (.lit 3557562367689425 1000000000000000) (.coef 21)) (.sub (.mul (.mul (.var 0) (.pow (.var 1) 2)) (.var 2)) (.mul (.mul (.lit 3333333333333333 10000000000000000) (.var 0)) (.var 2))),
  .mul (.mul (.lit 2053959590644372 1000000000000000) (.coef 14)) (.sub (.mul (.pow (.var 1) 2) (.var 2)) (.mul (.lit 3333333333333333 10000000000000000) (.var 2))),
  .mul (.mul (.lit 7015607600201137 1000000000000000) (.coef 29)) (.sub (.mul (.mul (.pow (.var 0) 3) (.var 1)) (.var 2)) (.mul (.mul (.mul (.lit 6 10) (.var 0)) (.var 1)) (.var 2))),
  .mul (.mul (.lit 3557562367689425 1000000000000000) (.coef 20)) (.sub (.mul (.mul (.pow (.var 0) 2) (.var 1)) (.var 2)) (.mul (.mul (.lit 3333333333333333 10000000000000000) (.var 1)) (.var 2))),
  .mul (.mul (.lit 4050462936504911 1000000000000000) (.coef 25)) (.sub (.mul (.pow (.var 0) 3) (.var 2)) (.mul (.mul (.lit 6 10) (.var 0)) (.var 2))),
  .mul (.mul (.lit 2053959590644372 1000000000000000) (.coef 13)) (.sub (.mul (.pow (.var 0) 2) (.var 2)) (.mul (.lit 3333333333333333 10000000000000000) (.var 2))),
  .mul (.mul (.mul (.mul (.lit 1837117307087383 1000000000000000) (.coef 10)) (.var 0)) (.var 1)) (.var 2),
  .mul (.mul (.mul (.lit 1060660171779821 1000000000000000) (.coef 6)) (.var 1)) (.var 2),
  .mul (.mul (.mul (.lit 1060660171779821 1000000000000000) (.coef 5)) (.var 0)) (.var 2),
  .mul (.mul (.lit 6123724356957944 10000000000000000) (.coef 3)) (.var 2),
  .mul (.mul (.lit 4050462936504911 1000000000000000) (.coef 24)) (.sub (.mul (.var 0) (.pow (.var 1) 3)) (.mul (.mul (.lit 6 10) (.var 0)) (.var 1))),
  .mul (.mul (.lit 2338535866733713 1000000000000000) (.coef 18)) (.sub (.pow (.var 1) 3) (.mul (.lit 6 10) (.var 1))),
  .mul (.mul (.lit 2053959590644372 1000000000000000) (.coef 12)) (.sub (.mul (.var 0) (.pow (.var 1) 2)) (.mul (.lit 3333333333333333 10000000000000000) (.var 0))),
  .mul (.mul (.lit 1185854122563142 1000000000000000) (.coef 8)) (.sub (.pow (.var 1) 2) (.lit 3333333333333333 10000000000000000)),
  .mul (.mul (.lit 4050462936504911 1000000000000000) (.coef 23)) (.sub (.mul (.pow (.var 0) 3) (.var 1)) (.mul (.mul (.lit 6 10) (.var 0)) (.var 1))),
  .mul (.mul (.lit 2053959590644372 1000000000000000) (.coef 11)) (.sub (.mul (.pow (.var 0) 2) (.var 1)) (.mul (.lit 3333333333333333 10000000000000000) (.var 1))),
  .mul (.mul (.mul (.lit 1060660171779821 1000000000000000) (.coef 4)) (.var 0)) (.var 1),
  .mul (.mul (.lit 6123724356957944 10000000000000000) (.coef 2)) (.var 1),
  .mul (.mul (.lit 2338535866733713 1000000000000000) (.coef 17)) (.sub (.pow (.var 0) 3) (.mul (.lit 6 10) (.var 0))),
  .mul (.mul (.lit 1185854122563142 1000000000000000) (.coef 7)) (.sub (.pow (.var 0) 2) (.lit 3333333333333333 10000000000000000)),
  .mul (.mul (.lit 6123724356957944 10000000000000000) (.coef 1)) (.var 0),
  .mul (.lit 3535533905932737 10000000000000000) (.coef 0)]

/-- expand3d.py:85-185, arguments f, x, y, z. -/
def expand3d4p : Option (List Expr) := some [
  .mul (.mul (.lit 1392116475461015 100000000000000) (.coef 49)) (.sub (.sub (.mul (.mul (.var 0) (.var 1)) (.pow (.var 2) 4)) (.mul (.lit 8571428571428571 10000000000000000) (.sub (.mul (.mul (.var 0) (.var 1)) (.pow (.var 2) 2)) (.mul (.mul (.lit 3333333333333333 10000000000000000) (.var 0)) (.var 1))))) (.mul (.mul (.lit 2 10) (.var 0)) (.var 1))),
  .mul (.mul (.lit 8037388218507298 1000000000000000) (.coef 46)) (.sub (.sub (.mul (.var 1) (.pow (.var 2) 4)) (.mul (.lit 8571428571428571 10000000000000000) (.sub (.mul (.var 1) (.pow (.var 2) 2)) (.mul (.lit 3333333333333333 10000000000000000) (.var 1))))) (.mul (.lit 2 10) (.var 1))),
  .mul (.mul (.lit 8037388218507298 1000000000000000) (.coef 45)) (.sub (.sub (.mul (.var 0) (.pow (.var 2) 4)) (.mul (.lit 8571428571428571 10000000000000000) (.sub (.mul (.var 0) (.pow (.var 2) 2)) (.mul (.lit 3333333333333333 10000000000000000) (.var 0))))) (.mul (.lit 2 10) (.var 0))),
  .mul (.mul (.lit 4640388251536716 1000000000000000) (.coef 34)) (.sub (.sub (.pow (.var 2) 4) (.mul (.lit 8571428571428571 10000000000000000) (.sub (.pow (.var 2) 2) (.lit 3333333333333333 10000000000000000)))) (.lit 2 10)),
  .mul (.mul (.lit 7015607600201137 1000000000000000) (.coef 40)) (.sub (.mul (.mul (.var 0) (.var 1)) (.pow (.var 2) 3)) (.mul (.mul (.mul (.lit 6 10) (.var 0)) (.var 1)) (.var 2))),
  .mul (.mul (.lit 4050462936504911 1000000000000000) (.coef 31)) (.sub (.mul (.var 1) (.pow (.var 2) 3)) (.mul (.mul (.lit 6 10) (.var 1)) (.var 2))),
  .mul (.mul (.lit 4050462936504911 1000000000000000) (.coef 30)) (.sub (.mul (.var 0) (.pow (.var 2) 3)) (.mul (.mul (.lit 6 10) (.var 0)) (.var 2))),
  .mul (.mul (.lit 2338535866733713 1000000000000000) (.coef 19)) (.sub (.pow (.var 2) 3) (.mul (.lit 6 10) (.var 2))),
  .mul (.mul (.mul (.mul (.mul (.mul (.mul (.mul (.lit 6889189901577683 1000000000000000) (.coef 36)) (.pos (.lit 6889189901577683 1000000000000000))) (.coef 37)) (.pos (.lit 3977475644174328 1000000000000000))) (.coef 25)) (.pos (.lit 3557562367689425 1000000000000000))) (.coef 22)) (.sub (.mul (.mul (.var 0) (.var 1)) (.pow (.var 2) 2)) (.mul (.mul (.lit 3333333333333333 10000000000000000) (.var 0)) (.var 1))),
  .mul (.mul (.lit 2053959590644372 1000000000000000) (.coef 16)) (.sub (.mul (.var 1) (.pow (.var 2) 2)) (.mul (.lit 3333333333333333 10000000000000000) (.var 1))),
  .mul (.mul (.mul (.mul (.lit 3977475644174328 1000000000000000) (.coef 24)) (.pos (.lit 2053959590644372 1000000000000000))) (.coef 15)) (.sub (.mul (.var 0) (.pow (.var 2) 2)) (.mul (.lit 3333333333333333 10000000000000000) (.var 0))),
  .mul (.mul (.lit 1185854122563142 1000000000000000) (.coef 9)) (.sub (.pow (.var 2) 2) (.lit 3333333333333333 10000000000000000)),
  .mul (.mul (.lit 1392116475461015 100000000000000) (.coef 48)) (.sub (.add (.mul (.neg (.lit 8571428571428571 10000000000000000)) (.sub (.mul (.mul (.var 0) (.pow (.var 1) 2)) (.var 2)) (.mul (.mul (.lit 3333333333333333 10000000000000000) (.var 0)) (.var 2)))) (.mul (.mul (.var 0) (.pow (.var 1) 4)) (.var 2))) (.mul (.mul (.lit 2 10) (.var 0)) (.var 2))),
  .mul (.mul (.mul (.mul (.lit 6889189901577683 1000000000000000) (.coef 35)) (.pos (.lit 8037388218507298 1000000000000000))) (.coef 44)) (.sub (.add (.mul (.neg (.lit 8571428571428571 10000000000000000)) (.sub (.mul (.pow (.var 1) 2) (.var 2)) (.mul (.lit 3333333333333333 10000000000000000) (.var 2)))) (.mul (.pow (.var 1) 4) (.var 2))) (.mul (.lit 2 10) (.var 2))),
  .mul (.mul (.lit 1392116475461015 100000000000000) (.coef 47)) (.sub (.add (.mul (.neg (.lit 8571428571428571 10000000000000000)) (.sub (.mul (.mul (.pow (.var 0) 2) (.var 1)) (.var 2)) (.mul (.mul (.lit 3333333333333333 10000000000000000) (.var 1)) (.var 2)))) (.mul (.mul (.pow (.var 0) 4) (.var 1)) (.var 2))) (.mul (.mul (.lit 2 10) (.var 1)) (.var 2))),
  .mul (.mul (.lit 8037388218507298 1000000000000000) (.coef 43)) (.sub (.add (.mul (.neg (.lit 8571428571428571 10000000000000000)) (.sub (.mul (.pow (.var 0) 2) (.var 2)) (.mul (.lit 3333333333333333 10000000000000000) (.var 2)))) (.mul (.pow (.var 0) 4) (.var 2))) (.mul (.lit 2 10) (.var 2))),
  .mul (.mul (.lit 7015607600201137 1000000000000000) (.coef 39)) (.sub (.mul (.mul (.var 0) (.pow (.var 1) 3)) (.var 2)) (.mul (.mul (.mul (.lit 6 10) (.var 0)) (.var 1)) (.var 2))),
  .mul (.mul (.lit 4050462936504911 1000000000000000) (.coef 29)) (.sub (.mul (.pow (.var 1) 3) (.var 2)) (.mul (.mul (.lit 6 10) (.var 1)) (.var 2))),
  .mul (.mul (.lit 3557562367689425 1000000000000000) (.coef 21)) (.sub (.mul (.mul (.var 0) (.pow (.var 1) 2)) (.var 2)) (.mul (.mul (.lit 3333333333333333 10000000000000000) (.var 0)) (.var 2))),
  .mul (.mul (.lit 2053959590644372 1000000000000000) (.coef 14)) (.sub (.mul (.pow (.var 1) 2) (.var 2)) (.mul (.lit 3333333333333333 10000000000000000) (.var 2))),
  .mul (.mul (.lit 7015607600201137 1000000000000000) (.coef 38)) (.sub (.mul (.mul (.pow (.var 0) 3) (.var 1)) (.var 2)) (.mul (.mul (.mul (.lit 6 10) (.var 0)) (.var 1)) (.var 2))),
  .mul (.mul (.lit 3557562367689425 1000000000000000) (.coef 20)) (.sub (.mul (.mul (.pow (.var 0) 2) (.var 1)) (.var 2)) (.mul (.mul (.lit 3333333333333333 10000000000000000) (.var 1)) (.var 2))),
  .mul (.mul (.lit 4050462936504911 1000000000000000) (.coef 28)) (.sub (.mul (.pow (.var 0) 3) (.var 2)) (.mul (.mul (.lit 6 10) (.var 0)) (.var 2))),
  .mul (.mul (.lit 2053959590644372 1000000000000000) (.coef 13)) (.sub (.mul (.pow (.var 0) 2) (.var 2)) (.mul (.lit 3333333333333333 10000000000000000) (.var 2))),
  .mul (.mul (.mul (.mul (.lit 1837117307087383 1000000000000000) (.coef 10)) (.var 0)) (.var 1)) (.var 2),
  .mul (.mul (.mul (.lit 1060660171779821 1000000000000000) (.coef 6)) (.var 1)) (.var 2),
  .mul (.mul (.mul (.lit 1060660171779821 1000000000000000) (.coef 5)) (.var 0)) (.var 2),
  .mul (.mul (.lit 6123724356957944 10000000000000000) (.coef 3)) (.var 2),
  .mul (.mul (.lit 8037388218507298 1000000000000000) (.coef 42)) (.sub (.sub (.mul (.var 0) (.pow (.var 1) 4)) (.mul (.lit 8571428571428571 10000000000000000) (.sub (.mul (.var 0) (.pow (.var 1) 2)) (.mul (.lit 3333333333333333 10000000000000000) (.var 0))))) (.mul (.lit 2 10) (.var 0))),
  .mul (.mul (.lit 4640388251536716 1000000000000000) (.coef 33)) (.sub (.sub (.pow (.var 1) 4) (.mul (.lit 8571428571428571 10000000000000000) (.sub (.pow (.var 1) 2) (.lit 3333333333333333 10000000000000000)))) (.lit 2 10)),
  .mul (.mul (.lit 4050462936504911 1000000000000000) (.coef 27)) (.sub (.mul (.var 0) (.pow (.var 1) 3)) (.mul (.mul (.lit 6 10) (.var 0)) (.var 1))),
  .mul (.mul (.lit 2338535866733713 1000000000000000) (.coef 18)) (.sub (.pow (.var 1) 3) (.mul (.lit 6 10) (.var 1))),
  .mul (.mul (.mul (.mul (.lit 3977475644174328 1000000000000000) (.coef 23)) (.pos (.lit 2053959590644372 1000000000000000))) (.coef 12)) (.sub (.mul (.var 0) (.pow (.var 1) 2)) (.mul (.lit 3333333333333333 10000000000000000) (.var 0))),
  .mul (.mul (.lit 1185854122563142 1000000000000000) (.coef 8)) (.sub (.pow (.var 1) 2) (.lit 3333333333333333 10000000000000000)),
  .mul (.mul (.lit 8037388218507298 1000000000000000) (.coef 41)) (.sub (.add (.mul (.neg (.lit 8571428571428571 10000000000000000)) (.sub (.mul (.pow (.var 0) 2) (.var 1)) (.mul (.lit 3333333333333333 10000000000000000) (.var 1)))) (.mul (.pow (.var 0) 4) (.var 1))) (.mul (.lit 2 10) (.var 1))),
  .mul (.mul (.lit 4050462936504911 1000000000000000) (.coef 26)) (.sub (.mul (.pow (.var 0) 3) (.var 1)) (.mul (.mul (.lit 6 10) (.var 0)) (.var 1))),
  .mul (.mul (.lit 2053959590644372 1000000000000000) (.coef 11)) (.sub (.mul (.pow (.var 0) 2) (.var 1)) (.mul (.lit 3333333333333333 10000000000000000) (.var 1))),
  .mul (.mul (.mul (.lit 1060660171779821 1000000000000000) (.coef 4)) (.var 0)) (.var 1),
  .mul (.mul (.lit 6123724356957944 10000000000000000) (.coef 2)) (.var 1),
  .mul (.mul (.lit 4640388251536716 1000000000000000) (.coef 32)) (.sub (.sub (.pow (.var 0) 4) (.mul (.lit 8571428571428571 10000000000000000) (.sub (.pow (.var 0) 2) (.lit 3333333333333333 10000000000000000)))) (.lit 2 10)),
  .mul (.mul (.lit 2338535866733713 1000000000000000) (.coef 17)) (.sub (.pow (.var 0) 3) (.mul (.lit 6 10) (.var 0))),
  .mul (.mul (.lit 1185854122563142 1000000000000000) (.coef 7)) (.sub (.pow (.var 0) 2) (.lit 3333333333333333 10000000000000000)),
  .mul (.mul (.lit 6123724356957944 10000000000000000) (.coef 1)) (.var 0),
  .mul (.lit 3535533905932737 10000000000000000) (.coef 0)]

/-- expand3d.py:190: `expand_3d`. -/
def expand_3d : List (Option (List Expr)) := [expand3d1p, expand3d2p, expand3d3p, expand3d4p]

/-- expand4d.py:1-19, arguments f, x, y, z, vx. -/
def expand4d1p : Option (List Expr) := some [
  .mul (.mul (.mul (.mul (.mul (.lit 225 100) (.coef 15)) (.var 3)) (.var 0)) (.var 1)) (.var 2),
  .mul (.mul (.mul (.mul (.lit 1299038105676658 1000000000000000) (.coef 11)) (.var 0)) (.var 1)) (.var 2),
  .mul (.mul (.mul (.mul (.lit 1299038105676658 1000000000000000) (.coef 14)) (.var 3)) (.var 1)) (.var 2),
  .mul (.mul (.mul (.lit 75 100) (.coef 7)) (.var 1)) (.var 2),
  .mul (.mul (.mul (.mul (.lit 1299038105676658 1000000000000000) (.coef 13)) (.var 3)) (.var 0)) (.var 2),
  .mul (.mul (.mul (.lit 75 100) (.coef 6)) (.var 0)) (.var 2),
  .mul (.mul (.mul (.lit 75 100) (.coef 10)) (.var 3)) (.var 2),
  .mul (.mul (.lit 4330127018922193 10000000000000000) (.coef 3)) (.var 2),
  .mul (.mul (.mul (.mul (.lit 1299038105676658 1000000000000000) (.coef 12)) (.var 3)) (.var 0)) (.var 1),
  .mul (.mul (.mul (.lit 75 100) (.coef 5)) (.var 0)) (.var 1),
  .mul (.mul (.mul (.lit 75 100) (.coef 9)) (.var 3)) (.var 1),
  .mul (.mul (.lit 4330127018922193 10000000000000000) (.coef 2)) (.var 1),
  .mul (.mul (.mul (.lit 75 100) (.coef 8)) (.var 3)) (.var 0),
  .mul (.mul (.lit 4330127018922193 10000000000000000) (.coef 1)) (.var 0),
  .mul (.mul (.lit 4330127018922193 10000000000000000) (.coef 4)) (.var 3),
  .mul (.lit 25 100) (.coef 0)]

/-- expand4d.py:25-83, arguments f, x, y, z, vx. -/
def expand4d2p : Option (List Expr) := some [
  .mul (.mul (.lit 4357106264483344 1000000000000000) (.coef 46)) (.sub (.mul (.mul (.mul (.var 3) (.var 0)) (.var 1)) (.pow (.var 2) 2)) (.mul (.mul (.mul (.lit 3333333333333333 10000000000000000) (.var 3)) (.var 0)) (.var 1))),
  .mul (.mul (.lit 2515576474687264 1000000000000000) (.coef 34)) (.sub (.mul (.mul (.var 0) (.var 1)) (.pow (.var 2) 2)) (.mul (.mul (.lit 3333333333333333 10000000000000000) (.var 0)) (.var 1))),
  .mul (.mul (.lit 2515576474687264 1000000000000000) (.coef 40)) (.sub (.mul (.mul (.var 3) (.var 1)) (.pow (.var 2) 2)) (.mul (.mul (.lit 3333333333333333 10000000000000000) (.var 3)) (.var 1))),
  .mul (.mul (.lit 1452368754827781 1000000000000000) (.coef 24)) (.sub (.mul (.var 1) (.pow (.var 2) 2)) (.mul (.lit 3333333333333333 10000000000000000) (.var 1))),
  .mul (.mul (.lit 2515576474687264 1000000000000000) (.coef 39)) (.sub (.mul (.mul (.var 3) (.var 0)) (.pow (.var 2) 2)) (.mul (.mul (.lit 3333333333333333 10000000000000000) (.var 3)) (.var 0))),
  .mul (.mul (.lit 1452368754827781 1000000000000000) (.coef 23)) (.sub (.mul (.var 0) (.pow (.var 2) 2)) (.mul (.lit 3333333333333333 10000000000000000) (.var 0))),
  .mul (.mul (.lit 1452368754827781 1000000000000000) (.coef 27)) (.sub (.mul (.var 3) (.pow (.var 2) 2)) (.mul (.lit 3333333333333333 10000000000000000) (.var 3))),
  .mul (.mul (.lit 8385254915624212 10000000000000000) (.coef 13)) (.sub (.pow (.var 2) 2) (.lit 3333333333333333 10000000000000000)),
  .mul (.mul (.lit 4357106264483344 1000000000000000) (.coef 45)) (.sub (.mul (.mul (.mul (.var 3) (.var 0)) (.pow (.var 1) 2)) (.var 2)) (.mul (.mul (.mul (.lit 3333333333333333 10000000000000000) (.var 3)) (.var 0)) (.var 2))),
  .mul (.mul (.lit 2515576474687264 1000000000000000) (.coef 33)) (.sub (.mul (.mul (.var 0) (.pow (.var 1) 2)) (.var 2)) (.mul (.mul (.lit 3333333333333333 10000000000000000) (.var 0)) (.var 2))),
  .mul (.mul (.lit 2515576474687264 1000000000000000) (.coef 38)) (.sub (.mul (.mul (.var 3) (.pow (.var 1) 2)) (.var 2)) (.mul (.mul (.lit 3333333333333333 10000000000000000) (.var 3)) (.var 2))),
  .mul (.mul (.lit 1452368754827781 1000000000000000) (.coef 22)) (.sub (.mul (.pow (.var 1) 2) (.var 2)) (.mul (.lit 3333333333333333 10000000000000000) (.var 2))),
  .mul (.mul (.lit 4357106264483344 1000000000000000) (.coef 44)) (.sub (.mul (.mul (.mul (.var 3) (.pow (.var 0) 2)) (.var 1)) (.var 2)) (.mul (.mul (.mul (.lit 3333333333333333 10000000000000000) (.var 3)) (.var 1)) (.var 2))),
  .mul (.mul (.lit 2515576474687264 1000000000000000) (.coef 32)) (.sub (.mul (.mul (.pow (.var 0) 2) (.var 1)) (.var 2)) (.mul (.mul (.lit 3333333333333333 10000000000000000) (.var 1)) (.var 2))),
  .mul (.mul (.lit 4357106264483344 1000000000000000) (.coef 47)) (.sub (.mul (.mul (.mul (.pow (.var 3) 2) (.var 0)) (.var 1)) (.var 2)) (.mul (.mul (.mul (.lit 3333333333333333 10000000000000000) (.var 0)) (.var 1)) (.var 2))),
  .mul (.mul (.lit 2515576474687264 1000000000000000) (.coef 43)) (.sub (.mul (.mul (.pow (.var 3) 2) (.var 1)) (.var 2)) (.mul (.mul (.lit 3333333333333333 10000000000000000) (.var 1)) (.var 2))),
  .mul (.mul (.lit 2515576474687264 1000000000000000) (.coef 37)) (.sub (.mul (.mul (.var 3) (.pow (.var 0) 2)) (.var 2)) (.mul (.mul (.lit 3333333333333333 10000000000000000) (.var 3)) (.var 2))),
  .mul (.mul (.lit 1452368754827781 1000000000000000) (.coef 21)) (.sub (.mul (.pow (.var 0) 2) (.var 2)) (.mul (.lit 3333333333333333 10000000000000000) (.var 2))),
  .mul (.mul (.lit 2515576474687264 1000000000000000) (.coef 42)) (.sub (.mul (.mul (.pow (.var 3) 2) (.var 0)) (.var 2)) (.mul (.mul (.lit 3333333333333333 10000000000000000) (.var 0)) (.var 2))),
  .mul (.mul (.lit 1452368754827781 1000000000000000) (.coef 30)) (.sub (.mul (.pow (.var 3) 2) (.var 2)) (.mul (.lit 3333333333333333 10000000000000000) (.var 2))),
  .mul (.mul (.mul (.mul (.mul (.lit 225 100) (.coef 31)) (.var 3)) (.var 0)) (.var 1)) (.var 2),
  .mul (.mul (.mul (.mul (.lit 1299038105676658 1000000000000000) (.coef 15)) (.var 0)) (.var 1)) (.var 2),
  .mul (.mul (.mul (.mul (.lit 1299038105676658 1000000000000000) (.coef 18)) (.var 3)) (.var 1)) (.var 2),
  .mul (.mul (.mul (.lit 75 100) (.coef 7)) (.var 1)) (.var 2),
  .mul (.mul (.mul (.mul (.lit 1299038105676658 1000000000000000) (.coef 17)) (.var 3)) (.var 0)) (.var 2),
  .mul (.mul (.mul (.lit 75 100) (.coef 6)) (.var 0)) (.var 2),
  .mul (.mul (.mul (.lit 75 100) (.coef 10)) (.var 3)) (.var 2),
  .mul (.mul (.lit 4330127018922193 10000000000000000) (.coef 3)) (.var 2),
  .mul (.mul (.lit 2515576474687264 1000000000000000) (.coef 36)) (.sub (.mul (.mul (.var 3) (.var 0)) (.pow (.var 1) 2)) (.mul (.mul (.lit 3333333333333333 10000000000000000) (.var 3)) (.var 0))),
  .mul (.mul (.lit 1452368754827781 1000000000000000) (.coef 20)) (.sub (.mul (.var 0) (.pow (.var 1) 2)) (.mul (.lit 3333333333333333 10000000000000000) (.var 0))),
  .mul (.mul (.lit 1452368754827781 1000000000000000) (.coef 26)) (.sub (.mul (.var 3) (.pow (.var 1) 2)) (.mul (.lit 3333333333333333 10000000000000000) (.var 3))),
  .mul (.mul (.lit 8385254915624212 10000000000000000) (.coef 12)) (.sub (.pow (.var 1) 2) (.lit 3333333333333333 10000000000000000)),
  .mul (.mul (.lit 2515576474687264 1000000000000000) (.coef 35)) (.sub (.mul (.mul (.var 3) (.pow (.var 0) 2)) (.var 1)) (.mul (.mul (.lit 3333333333333333 10000000000000000) (.var 3)) (.var 1))),
  .mul (.mul (.lit 1452368754827781 1000000000000000) (.coef 19)) (.sub (.mul (.pow (.var 0) 2) (.var 1)) (.mul (.lit 3333333333333333 10000000000000000) (.var 1))),
  .mul (.mul (.lit 2515576474687264 1000000000000000) (.coef 41)) (.sub (.mul (.mul (.pow (.var 3) 2) (.var 0)) (.var 1)) (.mul (.mul (.lit 3333333333333333 10000000000000000) (.var 0)) (.var 1))),
  .mul (.mul (.lit 1452368754827781 1000000000000000) (.coef 29)) (.sub (.mul (.pow (.var 3) 2) (.var 1)) (.mul (.lit 3333333333333333 10000000000000000) (.var 1))),
  .mul (.mul (.mul (.mul (.lit 1299038105676658 1000000000000000) (.coef 16)) (.var 3)) (.var 0)) (.var 1),
  .mul (.mul (.mul (.lit 75 100) (.coef 5)) (.var 0)) (.var 1),
  .mul (.mul (.mul (.lit 75 100) (.coef 9)) (.var 3)) (.var 1),
  .mul (.mul (.lit 4330127018922193 10000000000000000) (.coef 2)) (.var 1),
  .mul (.mul (.lit 1452368754827781 1000000000000000) (.coef 25)) (.sub (.mul (.var 3) (.pow (.var 0) 2)) (.mul (.lit 3333333333333333 10000000000000000) (.var 3))),
  .mul (.mul (.lit 8385254915624212 10000000000000000) (.coef 11)) (.sub (.pow (.var 0) 2) (.lit 3333333333333333 10000000000000000)),
  .mul (.mul (.lit 1452368754827781 1000000000000000) (.coef 28)) (.sub (.mul (.pow (.var 3) 2) (.var 0)) (.mul (.lit 3333333333333333 10000000000000000) (.var 0))),
  .mul (.mul (.mul (.lit 75 100) (.coef 8)) (.var 3)) (.var 0),
  .mul (.mul (.lit 4330127018922193 10000000000000000) (.coef 1)) (.var 0),
  .mul (.mul (.lit 8385254915624212 10000000000000000) (.coef 14)) (.sub (.pow (.var 3) 2) (.lit 3333333333333333 10000000000000000)),
  .mul (.mul (.lit 4330127018922193 10000000000000000) (.coef 4)) (.var 3),
  .mul (.lit 25 100) (.coef 0)]

/-- expand4d.py:89-179, arguments f, x, y, z, vx. -/
def expand4d3p : Option (List Expr) := some [
  .mul (.mul (.lit 85923294280422 10000000000000) (.coef 78)) (.sub (.mul (.mul (.mul (.var 3) (.var 0)) (.var 1)) (.pow (.var 2) 3)) (.mul (.mul (.mul (.mul (.lit 6 10) (.var 3)) (.var 0)) (.var 1)) (.var 2))),
  .mul (.mul (.lit 4960783708246107 1000000000000000) (.coef 66)) (.sub (.mul (.mul (.var 0) (.var 1)) (.pow (.var 2) 3)) (.mul (.mul (.mul (.lit 6 10) (.var 0)) (.var 1)) (.var 2))),
  .mul (.mul (.lit 4960783708246107 1000000000000000) (.coef 72)) (.sub (.mul (.mul (.var 3) (.var 1)) (.pow (.var 2) 3)) (.mul (.mul (.mul (.lit 6 10) (.var 3)) (.var 1)) (.var 2))),
  .mul (.mul (.lit 28641098093474 10000000000000) (.coef 53)) (.sub (.mul (.var 1) (.pow (.var 2) 3)) (.mul (.mul (.lit 6 10) (.var 1)) (.var 2))),
  .mul (.mul (.lit 4960783708246107 1000000000000000) (.coef 71)) (.sub (.mul (.mul (.var 3) (.var 0)) (.pow (.var 2) 3)) (.mul (.mul (.mul (.lit 6 10) (.var 3)) (.var 0)) (.var 2))),
  .mul (.mul (.lit 28641098093474 10000000000000) (.coef 52)) (.sub (.mul (.var 0) (.pow (.var 2) 3)) (.mul (.mul (.lit 6 10) (.var 0)) (.var 2))),
  .mul (.mul (.lit 28641098093474 10000000000000) (.coef 56)) (.sub (.mul (.var 3) (.pow (.var 2) 3)) (.mul (.mul (.lit 6 10) (.var 3)) (.var 2))),
  .mul (.mul (.lit 1653594569415369 1000000000000000) (.coef 33)) (.sub (.pow (.var 2) 3) (.mul (.lit 6 10) (.var 2))),
  .mul (.mul (.lit 4357106264483344 1000000000000000) (.coef 62)) (.sub (.mul (.mul (.mul (.var 3) (.var 0)) (.var 1)) (.pow (.var 2) 2)) (.mul (.mul (.mul (.lit 3333333333333333 10000000000000000) (.var 3)) (.var 0)) (.var 1))),
  .mul (.mul (.lit 2515576474687264 1000000000000000) (.coef 38)) (.sub (.mul (.mul (.var 0) (.var 1)) (.pow (.var 2) 2)) (.mul (.mul (.lit 3333333333333333 10000000000000000) (.var 0)) (.var 1))),
  .mul (.mul (.lit 2515576474687264 1000000000000000) (.coef 44)) (.sub (.mul (.mul (.var 3) (.var 1)) (.pow (.var 2) 2)) (.mul (.mul (.lit 3333333333333333 10000000000000000) (.var 3)) (.var 1))),
  .mul (.mul (.lit 1452368754827781 1000000000000000) (.coef 24)) (.sub (.mul (.var 1) (.pow (.var 2) 2)) (.mul (.lit 3333333333333333 10000000000000000) (.var 1))),
  .mul (.mul (.lit 2515576474687264 1000000000000000) (.coef 43)) (.sub (.mul (.mul (.var 3) (.var 0)) (.pow (.var 2) 2)) (.mul (.mul (.lit 3333333333333333 10000000000000000) (.var 3)) (.var 0))),
  .mul (.mul (.lit 1452368754827781 1000000000000000) (.coef 23)) (.sub (.mul (.var 0) (.pow (.var 2) 2)) (.mul (.lit 3333333333333333 10000000000000000) (.var 0))),
  .mul (.mul (.lit 1452368754827781 1000000000000000) (.coef 27)) (.sub (.mul (.var 3) (.pow (.var 2) 2)) (.mul (.lit 3333333333333333 10000000000000000) (.var 3))),
  .mul (.mul (.lit 8385254915624212 10000000000000000) (.coef 13)) (.sub (.pow (.var 2) 2) (.lit 3333333333333333 10000000000000000)),
  .mul (.mul (.lit 85923294280422 10000000000000) (.coef 77)) (.sub (.mul (.mul (.mul (.var 3) (.var 0)) (.pow (.var 1) 3)) (.var 2)) (.mul (.mul (.mul (.mul (.lit 6 10) (.var 3)) (.var 0)) (.var 1)) (.var 2))),
  .mul (.mul (.lit 4960783708246107 1000000000000000) (.coef 65)) (.sub (.mul (.mul (.var 0) (.pow (.var 1) 3)) (.var 2)) (.mul (.mul (.mul (.lit 6 10) (.var 0)) (.var 1)) (.var 2))),
  .mul (.mul (.lit 4960783708246107 1000000000000000) (.coef 70)) (.sub (.mul (.mul (.var 3) (.pow (.var 1) 3)) (.var 2)) (.mul (.mul (.mul (.lit 6 10) (.var 3)) (.var 1)) (.var 2))),
  .mul (.mul (.lit 28641098093474 10000000000000) (.coef 51)) (.sub (.mul (.pow (.var 1) 3) (.var 2)) (.mul (.mul (.lit 6 10) (.var 1)) (.var 2))),
  .mul (.mul (.lit 4357106264483344 1000000000000000) (.coef 61)) (.sub (.mul (.mul (.mul (.var 3) (.var 0)) (.pow (.var 1) 2)) (.var 2)) (.mul (.mul (.mul (.lit 3333333333333333 10000000000000000) (.var 3)) (.var 0)) (.var 2))),
  .mul (.mul (.lit 2515576474687264 1000000000000000) (.coef 37)) (.sub (.mul (.mul (.var 0) (.pow (.var 1) 2)) (.var 2)) (.mul (.mul (.lit 3333333333333333 10000000000000000) (.var 0)) (.var 2))),
  .mul (.mul (.lit 2515576474687264 1000000000000000) (.coef 42)) (.sub (.mul (.mul (.var 3) (.pow (.var 1) 2)) (.var 2)) (.mul (.mul (.lit 3333333333333333 10000000000000000) (.var 3)) (.var 2))),
  .mul (.mul (.lit 1452368754827781 1000000000000000) (.coef 22)) (.sub (.mul (.pow (.var 1) 2) (.var 2)) (.mul (.lit 3333333333333333 10000000000000000) (.var 2))),
  .mul (.mul (.lit 85923294280422 10000000000000) (.coef 76)) (.sub (.mul (.mul (.mul (.var 3) (.pow (.var 0) 3)) (.var 1)) (.var 2)) (.mul (.mul (.mul (.mul (.lit 6 10) (.var 3)) (.var 0)) (.var 1)) (.var 2))),
  .mul (.mul (.lit 4960783708246107 1000000000000000) (.coef 64)) (.sub (.mul (.mul (.pow (.var 0) 3) (.var 1)) (.var 2)) (.mul (.mul (.mul (.lit 6 10) (.var 0)) (.var 1)) (.var 2))),
  .mul (.mul (.lit 4357106264483344 1000000000000000) (.coef 60)) (.sub (.mul (.mul (.mul (.var 3) (.pow (.var 0) 2)) (.var 1)) (.var 2)) (.mul (.mul (.mul (.lit 3333333333333333 10000000000000000) (.var 3)) (.var 1)) (.var 2))),
  .mul (.mul (.lit 2515576474687264 1000000000000000) (.coef 36)) (.sub (.mul (.mul (.pow (.var 0) 2) (.var 1)) (.var 2)) (.mul (.mul (.lit 3333333333333333 10000000000000000) (.var 1)) (.var 2))),
  .mul (.mul (.lit 85923294280422 10000000000000) (.coef 79)) (.sub (.mul (.mul (.mul (.pow (.var 3) 3) (.var 0)) (.var 1)) (.var 2)) (.mul (.mul (.mul (.mul (.lit 6 10) (.var 3)) (.var 0)) (.var 1)) (.var 2))),
  .mul (.mul (.lit 4357106264483344 1000000000000000) (.coef 63)) (.sub (.mul (.mul (.mul (.pow (.var 3) 2) (.var 0)) (.var 1)) (.var 2)) (.mul (.mul (.mul (.lit 3333333333333333 10000000000000000) (.var 0)) (.var 1)) (.var 2))),
  .mul (.mul (.lit 4960783708246107 1000000000000000) (.coef 75)) (.sub (.mul (.mul (.pow (.var 3) 3) (.var 1)) (.var 2)) (.mul (.mul (.mul (.lit 6 10) (.var 3)) (.var 1)) (.var 2))),
  .mul (.mul (.lit 2515576474687264 1000000000000000) (.coef 47)) (.sub (.mul (.mul (.pow (.var 3) 2) (.var 1)) (.var 2)) (.mul (.mul (.lit 3333333333333333 10000000000000000) (.var 1)) (.var 2))),
  .mul (.mul (.lit 4960783708246107 1000000000000000) (.coef 69)) (.sub (.mul (.mul (.var 3) (.pow (.var 0) 3)) (.var 2)) (.mul (.mul (.mul (.lit 6 10) (.var 3)) (.var 0)) (.var 2))),
  .mul (.mul (.lit 28641098093474 10000000000000) (.coef 50)) (.sub (.mul (.pow (.var 0) 3) (.var 2)) (.mul (.mul (.lit 6 10) (.var 0)) (.var 2))),
  .mul (.mul (.lit 2515576474687264 1000000000000000) (.coef 41)) (.sub (.mul (.mul (.var 3) (.pow (.var 0) 2)) (.var 2)) (.mul (.mul (.lit 3333333333333333 10000000000000000) (.var 3)) (.var 2))),
  .mul (.mul (.lit 1452368754827781 1000000000000000) (.coef 21)) (.sub (.mul (.pow (.var 0) 2) (.var 2)) (.mul (.lit 3333333333333333 10000000000000000) (.var 2))),
  .mul (.mul (.lit 4960783708246107 1000000000000000) (.coef 74)) (.sub (.mul (.mul (.pow (.var 3) 3) (.var 0)) (.var 2)) (.mul (.mul (.mul (.lit 6 10) (.var 3)) (.var 0)) (.var 2))),
  .mul (.mul (.lit 2515576474687264 1000000000000000) (.coef 46)) (.sub (.mul (.mul (.pow (.var 3) 2) (.var 0)) (.var 2)) (.mul (.mul (.lit 3333333333333333 10000000000000000) (.var 0)) (.var 2))),
  .mul (.mul (.lit 28641098093474 10000000000000) (.coef 59)) (.sub (.mul (.pow (.var 3) 3) (.var 2)) (.mul (.mul (.lit 6 10) (.var 3)) (.var 2))),
  .mul (.mul (.lit 1452368754827781 1000000000000000) (.coef 30)) (.sub (.mul (.pow (.var 3) 2) (.var 2)) (.mul (.lit 3333333333333333 10000000000000000) (.var 2))),
  .mul (.mul (.mul (.mul (.mul (.lit 225 100) (.coef 35)) (.var 3)) (.var 0)) (.var 1)) (.var 2),
  .mul (.mul (.mul (.mul (.lit 1299038105676658 1000000000000000) (.coef 15)) (.var 0)) (.var 1)) (.var 2),
  .mul (.mul (.mul (.mul (.lit 1299038105676658 1000000000000000) (.coef 18)) (.var 3)) (.var 1)) (.var 2),
  .mul (.mul (.mul (.lit 75 100) (.coef 7)) (.var 1)) (.var 2),
  .mul (.mul (.mul (.mul (.lit 1299038105676658 1000000000000000) (.coef 17)) (.var 3)) (.var 0)) (.var 2),
  .mul (.mul (.mul (.lit 75 100) (.coef 6)) (.var 0)) (.var 2),
  .mul (.mul (.mul (.lit 75 100) (.coef 10)) (.var 3)) (.var 2),
  .mul (.mul (.lit 4330127018922193 10000000000000000) (.coef 3)) (.var 2),
  .mul (.mul (.lit 4960783708246107 1000000000000000) (.coef 68)) (.sub (.mul (.mul (.var 3) (.var 0)) (.pow (.var 1) 3)) (.mul (.mul (.mul (.lit 6 10) (.var 3)) (.var 0)) (.var 1))),
  .mul (.mul (.lit 28641098093474 10000000000000) (.coef 49)) (.sub (.mul (.var 0) (.pow (.var 1) 3)) (.mul (.mul (.lit 6 10) (.var 0)) (.var 1))),
  .mul (.mul (.lit 28641098093474 10000000000000) (.coef 55)) (.sub (.mul (.var 3) (.pow (.var 1) 3)) (.mul (.mul (.lit 6 10) (.var 3)) (.var 1))),
  .mul (.mul (.lit 1653594569415369 1000000000000000) (.coef 32)) (.sub (.pow (.var 1) 3) (.mul (.lit 6 10) (.var 1))),
  .mul (.mul (.lit 2515576474687264 1000000000000000) (.coef 40)) (.sub (.mul (.mul (.var 3) (.var 0)) (.pow (.var 1) 2)) (.mul (.mul (.lit 3333333333333333 10000000000000000) (.var 3)) (.var 0))),
  .mul (.mul (.lit 1452368754827781 1000000000000000) (.coef 20)) (.sub (.mul (.var 0) (.pow (.var 1) 2)) (.mul (.lit 3333333333333333 10000000000000000) (.var 0))),
  .mul (.mul (.lit 1452368754827781 1000000000000000) (.coef 26)) (.sub (.mul (.var 3) (.pow (.var 1) 2)) (.mul (.lit 3333333333333333 10000000000000000) (.var 3))),
  .mul (.mul (.lit 8385254915624212 10000000000000000) (.coef 12)) (.sub (.pow (.var 1) 2) (.lit 3333333333333333 10000000000000000)),
  .mul (.mul (.lit 4960783708246107 1000000000000000) (.coef 67)) (.sub (.mul (.mul (.var 3) (.pow (.var 0) 3)) (.var 1)) (.mul (.mul (.mul (.lit 6 10) (.var 3)) (.var 0)) (.var 1))),
  .mul (.mul (.lit 28641098093474 10000000000000) (.coef 48)) (.sub (.mul (.pow (.var 0) 3) (.var 1)) (.mul (.mul (.lit 6 10) (.var 0)) (.var 1))),
  .mul (.mul (.lit 2515576474687264 1000000000000000) (.coef 39)) (.sub (.mul (.mul (.var 3) (.pow (.var 0) 2)) (.var 1)) (.mul (.mul (.lit 3333333333333333 10000000000000000) (.var 3)) (.var 1))),
  .mul (.mul (.lit 1452368754827781 1000000000000000) (.coef 19)) (.sub (.mul (.pow (.var 0) 2) (.var 1)) (.mul (.lit 3333333333333333 10000000000000000) (.var 1))),
  .mul (.mul (.lit 4960783708246107 1000000000000000) (.coef 73)) (.sub (.mul (.mul (.pow (.var 3) 3) (.var 0)) (.var 1)) (.mul (.mul (.mul (.lit 6 10) (.var 3)) (.var 0)) (.var 1))),
  .mul (.mul (.lit 2515576474687264 1000000000000000) (.coef 45)) (.sub (.mul (.mul (.pow (.var 3) 2) (.var 0)) (.var 1)) (.mul (.mul (.lit 3333333333333333 10000000000000000) (.var 0)) (.var 1))),
  .mul (.mul (.lit 28641098093474 10000000000000) (.coef 58)) (.sub (.mul (.pow (.var 3) 3) (.var 1)) (.mul (.mul (.lit 6 10) (.var 3)) (.var 1))),
  .mul (.mul (.lit 1452368754827781 1000000000000000) (.coef 29)) (.sub (.mul (.pow (.var 3) 2) (.var 1)) (.mul (.lit 3333333333333333 10000000000000000) (.var 1))),
  .mul (.mul (.mul (.mul (.lit 1299038105676658 1000000000000000) (.coef 16)) (.var 3)) (.var 0)) (.var 1),
  .mul (.mul (.mul (.lit 75 100) (.coef 5)) (.var 0)) (.var 1),
  .mul (.mul (.mul (.lit 75 100) (.coef 9)) (.var 3)) (.var 1),
  .mul (.mul (.lit 4330127018922193 10000000000000000) (.coef 2)) (.var 1),
  .mul (.mul (.lit 28641098093474 10000000000000) (.coef 54)) (.sub (.mul (.var 3) (.pow (.var 0) 3)) (.mul (.mul (.lit 6 10) (.var 3)) (.var 0))),
  .mul (.mul (.lit 1653594569415369 1000000000000000) (.coef 31)) (.sub (.pow (.var 0) 3) (.mul (.lit 6 10) (.var 0))),
  .mul (.mul (.lit 1452368754827781 1000000000000000) (.coef 25)) (.sub (.mul (.var 3) (.pow (.var 0) 2)) (.mul (.lit 3333333333333333 10000000000000000) (.var 3))),
  .mul (.mul (.lit 8385254915624212 10000000000000000) (.coef 11)) (.sub (.pow (.var 0) 2) (.lit 3333333333333333 10000000000000000)),
  .mul (.mul (.lit 28641098093474 10000000000000) (.coef 57)) (.sub (.mul (.pow (.var 3) 3) (.var 0)) (.mul (.mul (.lit 6 10) (.var 3)) (.var 0))),
  .mul (.mul (.lit 1452368754827781 1000000000000000) (.coef 28)) (.sub (.mul (.pow (.var 3) 2) (.var 0)) (.mul (.lit 3333333333333333 10000000000000000) (.var 0))),
  .mul (.mul (.mul (.lit 75 100) (.coef 8)) (.var 3)) (.var 0),
  .mul (.mul (.lit 4330127018922193 10000000000000000) (.coef 1)) (.var 0),
  .mul (.mul (.lit 1653594569415369 1000000000000000) (.coef 34)) (.sub (.pow (.var 3) 3) (.mul (.lit 6 10) (.var 3))),
  .mul (.mul (.lit 8385254915624212 10000000000000000) (.coef 14)) (.sub (.pow (.var 3) 2) (.lit 3333333333333333 10000000000000000)),
  .mul (.mul (.lit 4330127018922193 10000000000000000) (.coef 4)) (.var 3),
  .mul (.lit 25 100) (.coef 0)]

/-- expand4d.py:185-517, arguments f, x, y, z, vx. -/
def expand4d4p : Option (List Expr) := some [
  .mul (.mul (.lit 1704987513700613 100000000000000) (.coef 134)) (.sub (.sub (.mul (.mul (.mul (.var 3) (.var 0)) (.var 1)) (.pow (.var 2) 4)) (.mul (.lit 8571428571428571 10000000000000000) (.sub (.mul (.mul (.mul (.var 3) (.var 0)) (.var 1)) (.pow (.var 2) 2)) (.mul (.mul (.mul (.lit 3333333333333333 10000000000000000) (.var 3)) (.var 0)) (.var 1))))) (.mul (.mul (.mul (.lit 2 10) (.var 3)) (.var 0)) (.var 1))),
  .mul (.mul (.lit 984375 100000) (.coef 122)) (.sub (.sub (.mul (.mul (.var 0) (.var 1)) (.pow (.var 2) 4)) (.mul (.lit 8571428571428571 10000000000000000) (.sub (.mul (.mul (.var 0) (.var 1)) (.pow (.var 2) 2)) (.mul (.mul (.lit 3333333333333333 10000000000000000) (.var 0)) (.var 1))))) (.mul (.mul (.lit 2 10) (.var 0)) (.var 1))),
  .mul (.mul (.lit 984375 100000) (.coef 128)) (.sub (.sub (.mul (.mul (.var 3) (.var 1)) (.pow (.var 2) 4)) (.mul (.lit 8571428571428571 10000000000000000) (.sub (.mul (.mul (.var 3) (.var 1)) (.pow (.var 2) 2)) (.mul (.mul (.lit 3333333333333333 10000000000000000) (.var 3)) (.var 1))))) (.mul (.mul (.lit 2 10) (.var 3)) (.var 1))),
  .mul (.mul (.lit 5683291712335378 1000000000000000) (.coef 103)) (.sub (.sub (.mul (.var 1) (.pow (.var 2) 4)) (.mul (.lit 8571428571428571 10000000000000000) (.sub (.mul (.var 1) (.pow (.var 2) 2)) (.mul (.lit 3333333333333333 10000000000000000) (.var 1))))) (.mul (.lit 2 10) (.var 1))),
  .mul (.mul (.lit 984375 100000) (.coef 127)) (.sub (.sub (.mul (.mul (.var 3) (.var 0)) (.pow (.var 2) 4)) (.mul (.lit 8571428571428571 10000000000000000) (.sub (.mul (.mul (.var 3) (.var 0)) (.pow (.var 2) 2)) (.mul (.mul (.lit 3333333333333333 10000000000000000) (.var 3)) (.var 0))))) (.mul (.mul (.lit 2 10) (.var 3)) (.var 0))),
  .mul (.mul (.lit 5683291712335378 1000000000000000) (.coef 102)) (.sub (.sub (.mul (.var 0) (.pow (.var 2) 4)) (.mul (.lit 8571428571428571 10000000000000000) (.sub (.mul (.var 0) (.pow (.var 2) 2)) (.mul (.lit 3333333333333333 10000000000000000) (.var 0))))) (.mul (.lit 2 10) (.var 0))),
  .mul (.mul (.lit 5683291712335378 1000000000000000) (.coef 106)) (.sub (.sub (.mul (.var 3) (.pow (.var 2) 4)) (.mul (.lit 8571428571428571 10000000000000000) (.sub (.mul (.var 3) (.pow (.var 2) 2)) (.mul (.lit 3333333333333333 10000000000000000) (.var 3))))) (.mul (.lit 2 10) (.var 3))),
  .mul (.mul (.lit 328125 100000) (.coef 68)) (.sub (.sub (.pow (.var 2) 4) (.mul (.lit 8571428571428571 10000000000000000) (.sub (.pow (.var 2) 2) (.lit 3333333333333333 10000000000000000)))) (.lit 2 10)),
  .mul (.mul (.lit 85923294280422 10000000000000) (.coef 118)) (.sub (.mul (.mul (.mul (.var 3) (.var 0)) (.var 1)) (.pow (.var 2) 3)) (.mul (.mul (.mul (.mul (.lit 6 10) (.var 3)) (.var 0)) (.var 1)) (.var 2))),
  .mul (.mul (.lit 4960783708246107 1000000000000000) (.coef 88)) (.sub (.mul (.mul (.var 0) (.var 1)) (.pow (.var 2) 3)) (.mul (.mul (.mul (.lit 6 10) (.var 0)) (.var 1)) (.var 2))),
  .mul (.mul (.lit 4960783708246107 1000000000000000) (.coef 94)) (.sub (.mul (.mul (.var 3) (.var 1)) (.pow (.var 2) 3)) (.mul (.mul (.mul (.lit 6 10) (.var 3)) (.var 1)) (.var 2))),
  .mul (.mul (.lit 28641098093474 10000000000000) (.coef 59)) (.sub (.mul (.var 1) (.pow (.var 2) 3)) (.mul (.mul (.lit 6 10) (.var 1)) (.var 2))),
  .mul (.mul (.lit 4960783708246107 1000000000000000) (.coef 93)) (.sub (.mul (.mul (.var 3) (.var 0)) (.pow (.var 2) 3)) (.mul (.mul (.mul (.lit 6 10) (.var 3)) (.var 0)) (.var 2))),
  .mul (.mul (.lit 28641098093474 10000000000000) (.coef 58)) (.sub (.mul (.var 0) (.pow (.var 2) 3)) (.mul (.mul (.lit 6 10) (.var 0)) (.var 2))),
  .mul (.mul (.lit 28641098093474 10000000000000) (.coef 62)) (.sub (.mul (.var 3) (.pow (.var 2) 3)) (.mul (.mul (.lit 6 10) (.var 3)) (.var 2))),
  .mul (.mul (.lit 1653594569415369 1000000000000000) (.coef 33)) (.sub (.pow (.var 2) 3) (.mul (.lit 6 10) (.var 2))),
  .mul (.mul (.mul (.mul (.mul (.mul (.mul (.mul (.mul (.mul (.mul (.mul (.mul (.mul (.mul (.mul (.mul (.mul (.mul (.mul (.mul (.mul (.lit 84375 10000) (.coef 115)) (.pos (.lit 84375 10000))) (.coef 111)) (.pos (.lit 4871392896287466 1000000000000000))) (.coef 75)) (.pos (.lit 4871392896287466 1000000000000000))) (.coef 85)) (.pos (.lit 84375 10000))) (.coef 112)) (.pos (.lit 4871392896287466 1000000000000000))) (.coef 76)) (.pos (.lit 4871392896287466 1000000000000000))) (.coef 84)) (.pos (.lit 4871392896287466 1000000000000000))) (.coef 79)) (.pos (.lit 4871392896287466 1000000000000000))) (.coef 78)) (.pos (.lit 28125 10000))) (.coef 50)) (.pos (.lit 4357106264483344 1000000000000000))) (.coef 72)) (.sub (.mul (.mul (.mul (.var 3) (.var 0)) (.var 1)) (.pow (.var 2) 2)) (.mul (.mul (.mul (.lit 3333333333333333 10000000000000000) (.var 3)) (.var 0)) (.var 1))),
  .mul (.mul (.lit 2515576474687264 1000000000000000) (.coef 38)) (.sub (.mul (.mul (.var 0) (.var 1)) (.pow (.var 2) 2)) (.mul (.mul (.lit 3333333333333333 10000000000000000) (.var 0)) (.var 1))),
  .mul (.mul (.lit 2515576474687264 1000000000000000) (.coef 44)) (.sub (.mul (.mul (.var 3) (.var 1)) (.pow (.var 2) 2)) (.mul (.mul (.lit 3333333333333333 10000000000000000) (.var 3)) (.var 1))),
  .mul (.mul (.lit 1452368754827781 1000000000000000) (.coef 24)) (.sub (.mul (.var 1) (.pow (.var 2) 2)) (.mul (.lit 3333333333333333 10000000000000000) (.var 1))),
  .mul (.mul (.mul (.mul (.lit 28125 10000) (.coef 49)) (.pos (.lit 2515576474687264 1000000000000000))) (.coef 43)) (.sub (.mul (.mul (.var 3) (.var 0)) (.pow (.var 2) 2)) (.mul (.mul (.lit 3333333333333333 10000000000000000) (.var 3)) (.var 0))),
  .mul (.mul (.lit 1452368754827781 1000000000000000) (.coef 23)) (.sub (.mul (.var 0) (.pow (.var 2) 2)) (.mul (.lit 3333333333333333 10000000000000000) (.var 0))),
  .mul (.mul (.mul (.mul (.lit 28125 10000) (.coef 53)) (.pos (.lit 1452368754827781 1000000000000000))) (.coef 27)) (.sub (.mul (.var 3) (.pow (.var 2) 2)) (.mul (.lit 3333333333333333 10000000000000000) (.var 3))),
  .mul (.mul (.lit 8385254915624212 10000000000000000) (.coef 13)) (.sub (.pow (.var 2) 2) (.lit 3333333333333333 10000000000000000)),
  .mul (.mul (.lit 1704987513700613 100000000000000) (.coef 133)) (.sub (.add (.mul (.neg (.lit 8571428571428571 10000000000000000)) (.sub (.mul (.mul (.mul (.var 3) (.var 0)) (.pow (.var 1) 2)) (.var 2)) (.mul (.mul (.mul (.lit 3333333333333333 10000000000000000) (.var 3)) (.var 0)) (.var 2)))) (.mul (.mul (.mul (.var 3) (.var 0)) (.pow (.var 1) 4)) (.var 2))) (.mul (.mul (.mul (.lit 2 10) (.var 3)) (.var 0)) (.var 2))),
  .mul (.mul (.mul (.mul (.lit 84375 10000) (.coef 114)) (.pos (.lit 984375 100000))) (.coef 121)) (.sub (.add (.mul (.neg (.lit 8571428571428571 10000000000000000)) (.sub (.mul (.mul (.var 0) (.pow (.var 1) 2)) (.var 2)) (.mul (.mul (.lit 3333333333333333 10000000000000000) (.var 0)) (.var 2)))) (.mul (.mul (.var 0) (.pow (.var 1) 4)) (.var 2))) (.mul (.mul (.lit 2 10) (.var 0)) (.var 2))),
  .mul (.mul (.mul (.mul (.lit 84375 10000) (.coef 110)) (.pos (.lit 984375 100000))) (.coef 126)) (.sub (.add (.mul (.neg (.lit 8571428571428571 10000000000000000)) (.sub (.mul (.mul (.var 3) (.pow (.var 1) 2)) (.var 2)) (.mul (.mul (.lit 3333333333333333 10000000000000000) (.var 3)) (.var 2)))) (.mul (.mul (.var 3) (.pow (.var 1) 4)) (.var 2))) (.mul (.mul (.lit 2 10) (.var 3)) (.var 2))),
  .mul (.mul (.mul (.mul (.mul (.mul (.lit 4871392896287466 1000000000000000) (.coef 74)) (.pos (.lit 4871392896287466 1000000000000000))) (.coef 83)) (.pos (.lit 5683291712335378 1000000000000000))) (.coef 101)) (.sub (.add (.mul (.neg (.lit 8571428571428571 10000000000000000)) (.sub (.mul (.pow (.var 1) 2) (.var 2)) (.mul (.lit 3333333333333333 10000000000000000) (.var 2)))) (.mul (.pow (.var 1) 4) (.var 2))) (.mul (.lit 2 10) (.var 2))),
  .mul (.mul (.lit 1704987513700613 100000000000000) (.coef 132)) (.sub (.add (.mul (.neg (.lit 8571428571428571 10000000000000000)) (.sub (.mul (.mul (.mul (.var 3) (.pow (.var 0) 2)) (.var 1)) (.var 2)) (.mul (.mul (.mul (.lit 3333333333333333 10000000000000000) (.var 3)) (.var 1)) (.var 2)))) (.mul (.mul (.mul (.var 3) (.pow (.var 0) 4)) (.var 1)) (.var 2))) (.mul (.mul (.mul (.lit 2 10) (.var 3)) (.var 1)) (.var 2))),
  .mul (.mul (.mul (.mul (.lit 84375 10000) (.coef 113)) (.pos (.lit 984375 100000))) (.coef 120)) (.sub (.add (.mul (.neg (.lit 8571428571428571 10000000000000000)) (.sub (.mul (.mul (.pow (.var 0) 2) (.var 1)) (.var 2)) (.mul (.mul (.lit 3333333333333333 10000000000000000) (.var 1)) (.var 2)))) (.mul (.mul (.pow (.var 0) 4) (.var 1)) (.var 2))) (.mul (.mul (.lit 2 10) (.var 1)) (.var 2))),
  .mul (.mul (.lit 1704987513700613 100000000000000) (.coef 135)) (.sub (.add (.mul (.neg (.lit 8571428571428571 10000000000000000)) (.sub (.mul (.mul (.mul (.pow (.var 3) 2) (.var 0)) (.var 1)) (.var 2)) (.mul (.mul (.mul (.lit 3333333333333333 10000000000000000) (.var 0)) (.var 1)) (.var 2)))) (.mul (.mul (.mul (.pow (.var 3) 4) (.var 0)) (.var 1)) (.var 2))) (.mul (.mul (.mul (.lit 2 10) (.var 0)) (.var 1)) (.var 2))),
  .mul (.mul (.lit 984375 100000) (.coef 131)) (.sub (.add (.mul (.neg (.lit 8571428571428571 10000000000000000)) (.sub (.mul (.mul (.pow (.var 3) 2) (.var 1)) (.var 2)) (.mul (.mul (.lit 3333333333333333 10000000000000000) (.var 1)) (.var 2)))) (.mul (.mul (.pow (.var 3) 4) (.var 1)) (.var 2))) (.mul (.mul (.lit 2 10) (.var 1)) (.var 2))),
  .mul (.mul (.lit 984375 100000) (.coef 125)) (.sub (.add (.mul (.neg (.lit 8571428571428571 10000000000000000)) (.sub (.mul (.mul (.var 3) (.pow (.var 0) 2)) (.var 2)) (.mul (.mul (.lit 3333333333333333 10000000000000000) (.var 3)) (.var 2)))) (.mul (.mul (.var 3) (.pow (.var 0) 4)) (.var 2))) (.mul (.mul (.lit 2 10) (.var 3)) (.var 2))),
  .mul (.mul (.mul (.mul (.lit 4871392896287466 1000000000000000) (.coef 82)) (.pos (.lit 5683291712335378 1000000000000000))) (.coef 100)) (.sub (.add (.mul (.neg (.lit 8571428571428571 10000000000000000)) (.sub (.mul (.pow (.var 0) 2) (.var 2)) (.mul (.lit 3333333333333333 10000000000000000) (.var 2)))) (.mul (.pow (.var 0) 4) (.var 2))) (.mul (.lit 2 10) (.var 2))),
  .mul (.mul (.lit 984375 100000) (.coef 130)) (.sub (.add (.mul (.neg (.lit 8571428571428571 10000000000000000)) (.sub (.mul (.mul (.pow (.var 3) 2) (.var 0)) (.var 2)) (.mul (.mul (.lit 3333333333333333 10000000000000000) (.var 0)) (.var 2)))) (.mul (.mul (.pow (.var 3) 4) (.var 0)) (.var 2))) (.mul (.mul (.lit 2 10) (.var 0)) (.var 2))),
  .mul (.mul (.lit 5683291712335378 1000000000000000) (.coef 109)) (.sub (.add (.mul (.neg (.lit 8571428571428571 10000000000000000)) (.sub (.mul (.pow (.var 3) 2) (.var 2)) (.mul (.lit 3333333333333333 10000000000000000) (.var 2)))) (.mul (.pow (.var 3) 4) (.var 2))) (.mul (.lit 2 10) (.var 2))),
  .mul (.mul (.lit 85923294280422 10000000000000) (.coef 117)) (.sub (.mul (.mul (.mul (.var 3) (.var 0)) (.pow (.var 1) 3)) (.var 2)) (.mul (.mul (.mul (.mul (.lit 6 10) (.var 3)) (.var 0)) (.var 1)) (.var 2))),
  .mul (.mul (.lit 4960783708246107 1000000000000000) (.coef 87)) (.sub (.mul (.mul (.var 0) (.pow (.var 1) 3)) (.var 2)) (.mul (.mul (.mul (.lit 6 10) (.var 0)) (.var 1)) (.var 2))),
  .mul (.mul (.lit 4960783708246107 1000000000000000) (.coef 92)) (.sub (.mul (.mul (.var 3) (.pow (.var 1) 3)) (.var 2)) (.mul (.mul (.mul (.lit 6 10) (.var 3)) (.var 1)) (.var 2))),
  .mul (.mul (.lit 28641098093474 10000000000000) (.coef 57)) (.sub (.mul (.pow (.var 1) 3) (.var 2)) (.mul (.mul (.lit 6 10) (.var 1)) (.var 2))),
  .mul (.mul (.lit 4357106264483344 1000000000000000) (.coef 71)) (.sub (.mul (.mul (.mul (.var 3) (.var 0)) (.pow (.var 1) 2)) (.var 2)) (.mul (.mul (.mul (.lit 3333333333333333 10000000000000000) (.var 3)) (.var 0)) (.var 2))),
  .mul (.mul (.lit 2515576474687264 1000000000000000) (.coef 37)) (.sub (.mul (.mul (.var 0) (.pow (.var 1) 2)) (.var 2)) (.mul (.mul (.lit 3333333333333333 10000000000000000) (.var 0)) (.var 2))),
  .mul (.mul (.lit 2515576474687264 1000000000000000) (.coef 42)) (.sub (.mul (.mul (.var 3) (.pow (.var 1) 2)) (.var 2)) (.mul (.mul (.lit 3333333333333333 10000000000000000) (.var 3)) (.var 2))),
  .mul (.mul (.lit 1452368754827781 1000000000000000) (.coef 22)) (.sub (.mul (.pow (.var 1) 2) (.var 2)) (.mul (.lit 3333333333333333 10000000000000000) (.var 2))),
  .mul (.mul (.lit 85923294280422 10000000000000) (.coef 116)) (.sub (.mul (.mul (.mul (.var 3) (.pow (.var 0) 3)) (.var 1)) (.var 2)) (.mul (.mul (.mul (.mul (.lit 6 10) (.var 3)) (.var 0)) (.var 1)) (.var 2))),
  .mul (.mul (.lit 4960783708246107 1000000000000000) (.coef 86)) (.sub (.mul (.mul (.pow (.var 0) 3) (.var 1)) (.var 2)) (.mul (.mul (.mul (.lit 6 10) (.var 0)) (.var 1)) (.var 2))),
  .mul (.mul (.lit 4357106264483344 1000000000000000) (.coef 70)) (.sub (.mul (.mul (.mul (.var 3) (.pow (.var 0) 2)) (.var 1)) (.var 2)) (.mul (.mul (.mul (.lit 3333333333333333 10000000000000000) (.var 3)) (.var 1)) (.var 2))),
  .mul (.mul (.lit 2515576474687264 1000000000000000) (.coef 36)) (.sub (.mul (.mul (.pow (.var 0) 2) (.var 1)) (.var 2)) (.mul (.mul (.lit 3333333333333333 10000000000000000) (.var 1)) (.var 2))),
  .mul (.mul (.lit 85923294280422 10000000000000) (.coef 119)) (.sub (.mul (.mul (.mul (.pow (.var 3) 3) (.var 0)) (.var 1)) (.var 2)) (.mul (.mul (.mul (.mul (.lit 6 10) (.var 3)) (.var 0)) (.var 1)) (.var 2))),
  .mul (.mul (.lit 4357106264483344 1000000000000000) (.coef 73)) (.sub (.mul (.mul (.mul (.pow (.var 3) 2) (.var 0)) (.var 1)) (.var 2)) (.mul (.mul (.mul (.lit 3333333333333333 10000000000000000) (.var 0)) (.var 1)) (.var 2))),
  .mul (.mul (.lit 4960783708246107 1000000000000000) (.coef 97)) (.sub (.mul (.mul (.pow (.var 3) 3) (.var 1)) (.var 2)) (.mul (.mul (.mul (.lit 6 10) (.var 3)) (.var 1)) (.var 2))),
  .mul (.mul (.lit 2515576474687264 1000000000000000) (.coef 47)) (.sub (.mul (.mul (.pow (.var 3) 2) (.var 1)) (.var 2)) (.mul (.mul (.lit 3333333333333333 10000000000000000) (.var 1)) (.var 2))),
  .mul (.mul (.lit 4960783708246107 1000000000000000) (.coef 91)) (.sub (.mul (.mul (.var 3) (.pow (.var 0) 3)) (.var 2)) (.mul (.mul (.mul (.lit 6 10) (.var 3)) (.var 0)) (.var 2))),
  .mul (.mul (.lit 28641098093474 10000000000000) (.coef 56)) (.sub (.mul (.pow (.var 0) 3) (.var 2)) (.mul (.mul (.lit 6 10) (.var 0)) (.var 2))),
  .mul (.mul (.lit 2515576474687264 1000000000000000) (.coef 41)) (.sub (.mul (.mul (.var 3) (.pow (.var 0) 2)) (.var 2)) (.mul (.mul (.lit 3333333333333333 10000000000000000) (.var 3)) (.var 2))),
  .mul (.mul (.lit 1452368754827781 1000000000000000) (.coef 21)) (.sub (.mul (.pow (.var 0) 2) (.var 2)) (.mul (.lit 3333333333333333 10000000000000000) (.var 2))),
  .mul (.mul (.lit 4960783708246107 1000000000000000) (.coef 96)) (.sub (.mul (.mul (.pow (.var 3) 3) (.var 0)) (.var 2)) (.mul (.mul (.mul (.lit 6 10) (.var 3)) (.var 0)) (.var 2))),
  .mul (.mul (.lit 2515576474687264 1000000000000000) (.coef 46)) (.sub (.mul (.mul (.pow (.var 3) 2) (.var 0)) (.var 2)) (.mul (.mul (.lit 3333333333333333 10000000000000000) (.var 0)) (.var 2))),
  .mul (.mul (.lit 28641098093474 10000000000000) (.coef 65)) (.sub (.mul (.pow (.var 3) 3) (.var 2)) (.mul (.mul (.lit 6 10) (.var 3)) (.var 2))),
  .mul (.mul (.lit 1452368754827781 1000000000000000) (.coef 30)) (.sub (.mul (.pow (.var 3) 2) (.var 2)) (.mul (.lit 3333333333333333 10000000000000000) (.var 2))),
  .mul (.mul (.mul (.mul (.mul (.lit 225 100) (.coef 35)) (.var 3)) (.var 0)) (.var 1)) (.var 2),
  .mul (.mul (.mul (.mul (.lit 1299038105676658 1000000000000000) (.coef 15)) (.var 0)) (.var 1)) (.var 2),
  .mul (.mul (.mul (.mul (.lit 1299038105676658 1000000000000000) (.coef 18)) (.var 3)) (.var 1)) (.var 2),
  .mul (.mul (.mul (.lit 75 100) (.coef 7)) (.var 1)) (.var 2),
  .mul (.mul (.mul (.mul (.lit 1299038105676658 1000000000000000) (.coef 17)) (.var 3)) (.var 0)) (.var 2),
  .mul (.mul (.mul (.lit 75 100) (.coef 6)) (.var 0)) (.var 2),
  .mul (.mul (.mul (.lit 75 100) (.coef 10)) (.var 3)) (.var 2),
  .mul (.mul (.lit 4330127018922193 10000000000000000) (.coef 3)) (.var 2),
  .mul (.mul (.lit 984375 100000) (.coef 124)) (.sub (.sub (.mul (.mul (.var 3) (.var 0)) (.pow (.var 1) 4)) (.mul (.lit 8571428571428571 10000000000000000) (.sub (.mul (.mul (.var 3) (.var 0)) (.pow (.var 1) 2)) (.mul (.mul (.lit 3333333333333333 10000000000000000) (.var 3)) (.var 0))))) (.mul (.mul (.lit 2 10) (.var 3)) (.var 0))),
  .mul (.mul (.lit 5683291712335378 1000000000000000) (.coef 99)) (.sub (.sub (.mul (.var 0) (.pow (.var 1) 4)) (.mul (.lit 8571428571428571 10000000000000000) (.sub (.mul (.var 0) (.pow (.var 1) 2)) (.mul (.lit 3333333333333333 10000000000000000) (.var 0))))) (.mul (.lit 2 10) (.var 0))),
  .mul (.mul (.lit 5683291712335378 1000000000000000) (.coef 105)) (.sub (.sub (.mul (.var 3) (.pow (.var 1) 4)) (.mul (.lit 8571428571428571 10000000000000000) (.sub (.mul (.var 3) (.pow (.var 1) 2)) (.mul (.lit 3333333333333333 10000000000000000) (.var 3))))) (.mul (.lit 2 10) (.var 3))),
  .mul (.mul (.lit 328125 100000) (.coef 67)) (.sub (.sub (.pow (.var 1) 4) (.mul (.lit 8571428571428571 10000000000000000) (.sub (.pow (.var 1) 2) (.lit 3333333333333333 10000000000000000)))) (.lit 2 10)),
  .mul (.mul (.lit 4960783708246107 1000000000000000) (.coef 90)) (.sub (.mul (.mul (.var 3) (.var 0)) (.pow (.var 1) 3)) (.mul (.mul (.mul (.lit 6 10) (.var 3)) (.var 0)) (.var 1))),
  .mul (.mul (.lit 28641098093474 10000000000000) (.coef 55)) (.sub (.mul (.var 0) (.pow (.var 1) 3)) (.mul (.mul (.lit 6 10) (.var 0)) (.var 1))),
  .mul (.mul (.lit 28641098093474 10000000000000) (.coef 61)) (.sub (.mul (.var 3) (.pow (.var 1) 3)) (.mul (.mul (.lit 6 10) (.var 3)) (.var 1))),
  .mul (.mul (.lit 1653594569415369 1000000000000000) (.coef 32)) (.sub (.pow (.var 1) 3) (.mul (.lit 6 10) (.var 1))),
  .mul (.mul (.mul (.mul (.mul (.mul (.mul (.mul (.lit 4871392896287466 1000000000000000) (.coef 81)) (.pos (.lit 4871392896287466 1000000000000000))) (.coef 77)) (.pos (.lit 28125 10000))) (.coef 48)) (.pos (.lit 2515576474687264 1000000000000000))) (.coef 40)) (.sub (.mul (.mul (.var 3) (.var 0)) (.pow (.var 1) 2)) (.mul (.mul (.lit 3333333333333333 10000000000000000) (.var 3)) (.var 0))),
  .mul (.mul (.lit 1452368754827781 1000000000000000) (.coef 20)) (.sub (.mul (.var 0) (.pow (.var 1) 2)) (.mul (.lit 3333333333333333 10000000000000000) (.var 0))),
  .mul (.mul (.mul (.mul (.lit 28125 10000) (.coef 52)) (.pos (.lit 1452368754827781 1000000000000000))) (.coef 26)) (.sub (.mul (.var 3) (.pow (.var 1) 2)) (.mul (.lit 3333333333333333 10000000000000000) (.var 3))),
  .mul (.mul (.lit 8385254915624212 10000000000000000) (.coef 12)) (.sub (.pow (.var 1) 2) (.lit 3333333333333333 10000000000000000)),
  .mul (.mul (.lit 984375 100000) (.coef 123)) (.sub (.add (.mul (.neg (.lit 8571428571428571 10000000000000000)) (.sub (.mul (.mul (.var 3) (.pow (.var 0) 2)) (.var 1)) (.mul (.mul (.lit 3333333333333333 10000000000000000) (.var 3)) (.var 1)))) (.mul (.mul (.var 3) (.pow (.var 0) 4)) (.var 1))) (.mul (.mul (.lit 2 10) (.var 3)) (.var 1))),
  .mul (.mul (.mul (.mul (.lit 4871392896287466 1000000000000000) (.coef 80)) (.pos (.lit 5683291712335378 1000000000000000))) (.coef 98)) (.sub (.add (.mul (.neg (.lit 8571428571428571 10000000000000000)) (.sub (.mul (.pow (.var 0) 2) (.var 1)) (.mul (.lit 3333333333333333 10000000000000000) (.var 1)))) (.mul (.pow (.var 0) 4) (.var 1))) (.mul (.lit 2 10) (.var 1))),
  .mul (.mul (.lit 984375 100000) (.coef 129)) (.sub (.add (.mul (.neg (.lit 8571428571428571 10000000000000000)) (.sub (.mul (.mul (.pow (.var 3) 2) (.var 0)) (.var 1)) (.mul (.mul (.lit 3333333333333333 10000000000000000) (.var 0)) (.var 1)))) (.mul (.mul (.pow (.var 3) 4) (.var 0)) (.var 1))) (.mul (.mul (.lit 2 10) (.var 0)) (.var 1))),
  .mul (.mul (.lit 5683291712335378 1000000000000000) (.coef 108)) (.sub (.add (.mul (.neg (.lit 8571428571428571 10000000000000000)) (.sub (.mul (.pow (.var 3) 2) (.var 1)) (.mul (.lit 3333333333333333 10000000000000000) (.var 1)))) (.mul (.pow (.var 3) 4) (.var 1))) (.mul (.lit 2 10) (.var 1))),
  .mul (.mul (.lit 4960783708246107 1000000000000000) (.coef 89)) (.sub (.mul (.mul (.var 3) (.pow (.var 0) 3)) (.var 1)) (.mul (.mul (.mul (.lit 6 10) (.var 3)) (.var 0)) (.var 1))),
  .mul (.mul (.lit 28641098093474 10000000000000) (.coef 54)) (.sub (.mul (.pow (.var 0) 3) (.var 1)) (.mul (.mul (.lit 6 10) (.var 0)) (.var 1))),
  .mul (.mul (.lit 2515576474687264 1000000000000000) (.coef 39)) (.sub (.mul (.mul (.var 3) (.pow (.var 0) 2)) (.var 1)) (.mul (.mul (.lit 3333333333333333 10000000000000000) (.var 3)) (.var 1))),
  .mul (.mul (.lit 1452368754827781 1000000000000000) (.coef 19)) (.sub (.mul (.pow (.var 0) 2) (.var 1)) (.mul (.lit 3333333333333333 10000000000000000) (.var 1))),
  .mul (.mul (.lit 4960783708246107 1000000000000000) (.coef 95)) (.sub (.mul (.mul (.pow (.var 3) 3) (.var 0)) (.var 1)) (.mul (.mul (.mul (.lit 6 10) (.var 3)) (.var 0)) (.var 1))),
  .mul (.mul (.lit 2515576474687264 1000000000000000) (.coef 45)) (.sub (.mul (.mul (.pow (.var 3) 2) (.var 0)) (.var 1)) (.mul (.mul (.lit 3333333333333333 10000000000000000) (.var 0)) (.var 1))),
  .mul (.mul (.lit 28641098093474 10000000000000) (.coef 64)) (.sub (.mul (.pow (.var 3) 3) (.var 1)) (.mul (.mul (.lit 6 10) (.var 3)) (.var 1))),
  .mul (.mul (.lit 1452368754827781 1000000000000000) (.coef 29)) (.sub (.mul (.pow (.var 3) 2) (.var 1)) (.mul (.lit 3333333333333333 10000000000000000) (.var 1))),
  .mul (.mul (.mul (.mul (.lit 1299038105676658 1000000000000000) (.coef 16)) (.var 3)) (.var 0)) (.var 1),
  .mul (.mul (.mul (.lit 75 100) (.coef 5)) (.var 0)) (.var 1),
  .mul (.mul (.mul (.lit 75 100) (.coef 9)) (.var 3)) (.var 1),
  .mul (.mul (.lit 4330127018922193 10000000000000000) (.coef 2)) (.var 1),
  .mul (.mul (.lit 5683291712335378 1000000000000000) (.coef 104)) (.sub (.sub (.mul (.var 3) (.pow (.var 0) 4)) (.mul (.lit 8571428571428571 10000000000000000) (.sub (.mul (.var 3) (.pow (.var 0) 2)) (.mul (.lit 3333333333333333 10000000000000000) (.var 3))))) (.mul (.lit 2 10) (.var 3))),
  .mul (.mul (.lit 328125 100000) (.coef 66)) (.sub (.sub (.pow (.var 0) 4) (.mul (.lit 8571428571428571 10000000000000000) (.sub (.pow (.var 0) 2) (.lit 3333333333333333 10000000000000000)))) (.lit 2 10)),
  .mul (.mul (.lit 28641098093474 10000000000000) (.coef 60)) (.sub (.mul (.var 3) (.pow (.var 0) 3)) (.mul (.mul (.lit 6 10) (.var 3)) (.var 0))),
  .mul (.mul (.lit 1653594569415369 1000000000000000) (.coef 31)) (.sub (.pow (.var 0) 3) (.mul (.lit 6 10) (.var 0))),
  .mul (.mul (.mul (.mul (.lit 28125 10000) (.coef 51)) (.pos (.lit 1452368754827781 1000000000000000))) (.coef 25)) (.sub (.mul (.var 3) (.pow (.var 0) 2)) (.mul (.lit 3333333333333333 10000000000000000) (.var 3))),
  .mul (.mul (.lit 8385254915624212 10000000000000000) (.coef 11)) (.sub (.pow (.var 0) 2) (.lit 3333333333333333 10000000000000000)),
  .mul (.mul (.lit 5683291712335378 1000000000000000) (.coef 107)) (.sub (.add (.mul (.neg (.lit 8571428571428571 10000000000000000)) (.sub (.mul (.pow (.var 3) 2) (.var 0)) (.mul (.lit 3333333333333333 10000000000000000) (.var 0)))) (.mul (.pow (.var 3) 4) (.var 0))) (.mul (.lit 2 10) (.var 0))),
  .mul (.mul (.lit 28641098093474 10000000000000) (.coef 63)) (.sub (.mul (.pow (.var 3) 3) (.var 0)) (.mul (.mul (.lit 6 10) (.var 3)) (.var 0))),
  .mul (.mul (.lit 1452368754827781 1000000000000000) (.coef 28)) (.sub (.mul (.pow (.var 3) 2) (.var 0)) (.mul (.lit 3333333333333333 10000000000000000) (.var 0))),
  .mul (.mul (.mul (.lit 75 100) (.coef 8)) (.var 3)) (.var 0),
  .mul (.mul (.lit 4330127018922193 10000000000000000) (.coef 1)) (.var 0),
  .mul (.mul (.lit 328125 100000) (.coef 69)) (.sub (.sub (.pow (.var 3) 4) (.mul (.lit 8571428571428571 10000000000000000) (.sub (.pow (.var 3) 2) (.lit 3333333333333333 10000000000000000)))) (.lit 2 10)),
  .mul (.mul (.lit 1653594569415369 1000000000000000) (.coef 34)) (.sub (.pow (.var 3) 3) (.mul (.lit 6 10) (.var 3))),
  .mul (.mul (.lit 8385254915624212 10000000000000000) (.coef 14)) (.sub (.pow (.var 3) 2) (.lit 3333333333333333 10000000000000000)),
  .mul (.mul (.lit 4330127018922193 10000000000000000) (.coef 4)) (.var 3),
  .mul (.lit 25 100) (.coef 0)]

/-- expand4d.py:522: `expand_4d`. -/
def expand_4d : List (Option (List Expr)) := [expand4d1p, expand4d2p, expand4d3p, expand4d4p]

/-- expand5d.py:1-35, arguments f, x, y, z, vx, vy. -/
def expand5d1p : Option (List Expr) := some [
  .mul (.mul (.mul (.mul (.mul (.mul (.lit 2755675960631073 1000000000000000) (.coef 31)) (.var 3)) (.var 4)) (.var 0)) (.var 1)) (.var 2),
  .mul (.mul (.mul (.mul (.mul (.lit 1590990257669731 1000000000000000) (.coef 27)) (.var 4)) (.var 0)) (.var 1)) (.var 2),
  .mul (.mul (.mul (.mul (.mul (.lit 1590990257669731 1000000000000000) (.coef 26)) (.var 3)) (.var 0)) (.var 1)) (.var 2),
  .mul (.mul (.mul (.mul (.lit 9185586535436913 10000000000000000) (.coef 16)) (.var 0)) (.var 1)) (.var 2),
  .mul (.mul (.mul (.mul (.mul (.lit 1590990257669731 1000000000000000) (.coef 30)) (.var 3)) (.var 4)) (.var 1)) (.var 2),
  .mul (.mul (.mul (.mul (.lit 9185586535436913 10000000000000000) (.coef 22)) (.var 4)) (.var 1)) (.var 2),
  .mul (.mul (.mul (.mul (.lit 9185586535436913 10000000000000000) (.coef 19)) (.var 3)) (.var 1)) (.var 2),
  .mul (.mul (.mul (.lit 5303300858899105 10000000000000000) (.coef 8)) (.var 1)) (.var 2),
  .mul (.mul (.mul (.mul (.mul (.lit 1590990257669731 1000000000000000) (.coef 29)) (.var 3)) (.var 4)) (.var 0)) (.var 2),
  .mul (.mul (.mul (.mul (.lit 9185586535436913 10000000000000000) (.coef 21)) (.var 4)) (.var 0)) (.var 2),
  .mul (.mul (.mul (.mul (.lit 9185586535436913 10000000000000000) (.coef 18)) (.var 3)) (.var 0)) (.var 2),
  .mul (.mul (.mul (.lit 5303300858899105 10000000000000000) (.coef 7)) (.var 0)) (.var 2),
  .mul (.mul (.mul (.mul (.lit 9185586535436913 10000000000000000) (.coef 25)) (.var 3)) (.var 4)) (.var 2),
  .mul (.mul (.mul (.lit 5303300858899105 10000000000000000) (.coef 14)) (.var 4)) (.var 2),
  .mul (.mul (.mul (.lit 5303300858899105 10000000000000000) (.coef 11)) (.var 3)) (.var 2),
  .mul (.mul (.lit 3061862178478971 10000000000000000) (.coef 3)) (.var 2),
  .mul (.mul (.mul (.mul (.mul (.lit 1590990257669731 1000000000000000) (.coef 28)) (.var 3)) (.var 4)) (.var 0)) (.var 1),
  .mul (.mul (.mul (.mul (.lit 9185586535436913 10000000000000000) (.coef 20)) (.var 4)) (.var 0)) (.var 1),
  .mul (.mul (.mul (.mul (.lit 9185586535436913 10000000000000000) (.coef 17)) (.var 3)) (.var 0)) (.var 1),
  .mul (.mul (.mul (.lit 5303300858899105 10000000000000000) (.coef 6)) (.var 0)) (.var 1),
  .mul (.mul (.mul (.mul (.lit 9185586535436913 10000000000000000) (.coef 24)) (.var 3)) (.var 4)) (.var 1),
  .mul (.mul (.mul (.lit 5303300858899105 10000000000000000) (.coef 13)) (.var 4)) (.var 1),
  .mul (.mul (.mul (.lit 5303300858899105 10000000000000000) (.coef 10)) (.var 3)) (.var 1),
  .mul (.mul (.lit 3061862178478971 10000000000000000) (.coef 2)) (.var 1),
  .mul (.mul (.mul (.mul (.lit 9185586535436913 10000000000000000) (.coef 23)) (.var 3)) (.var 4)) (.var 0),
  .mul (.mul (.mul (.lit 5303300858899105 10000000000000000) (.coef 12)) (.var 4)) (.var 0),
  .mul (.mul (.mul (.lit 5303300858899105 10000000000000000) (.coef 9)) (.var 3)) (.var 0),
  .mul (.mul (.lit 3061862178478971 10000000000000000) (.coef 1)) (.var 0),
  .mul (.mul (.mul (.lit 5303300858899105 10000000000000000) (.coef 15)) (.var 3)) (.var 4),
  .mul (.mul (.lit 3061862178478971 10000000000000000) (.coef 5)) (.var 4),
  .mul (.mul (.lit 3061862178478971 10000000000000000) (.coef 4)) (.var 3),
  .mul (.lit 1767766952966368 10000000000000000) (.coef 0)]

/-- expand5d.py:41-211, arguments f, x, y, z, vx, vy. -/
def expand5d2p : Option (List Expr) := some [
  .mul (.mul (.lit 5336343551534138 1000000000000000) (.coef 109)) (.xor (.mul (.mul (.mul (.mul (.var 3) (.var 4)) (.var 0)) (.var 1)) (.var 2)) (.sub (.lit 2 1) (.mul (.mul (.mul (.mul (.lit 3333333333333333 10000000000000000) (.var 3)) (.var 4)) (.var 0)) (.var 1)))),
  .mul (.mul (.lit 3080939385966558 1000000000000000) (.coef 93)) (.xor (.mul (.mul (.mul (.var 4) (.var 0)) (.var 1)) (.var 2)) (.sub (.lit 2 1) (.mul (.mul (.mul (.lit 3333333333333333 10000000000000000) (.var 4)) (.var 0)) (.var 1)))),
  .mul (.mul (.lit 3080939385966558 1000000000000000) (.coef 89)) (.xor (.mul (.mul (.mul (.var 3) (.var 0)) (.var 1)) (.var 2)) (.sub (.lit 2 1) (.mul (.mul (.mul (.lit 3333333333333333 10000000000000000) (.var 3)) (.var 0)) (.var 1)))),
  .mul (.mul (.lit 1778781183844713 1000000000000000) (.coef 58)) (.xor (.mul (.mul (.var 0) (.var 1)) (.var 2)) (.sub (.lit 2 1) (.mul (.mul (.lit 3333333333333333 10000000000000000) (.var 0)) (.var 1)))),
  .mul (.mul (.lit 3080939385966558 1000000000000000) (.coef 99)) (.xor (.mul (.mul (.mul (.var 3) (.var 4)) (.var 1)) (.var 2)) (.sub (.lit 2 1) (.mul (.mul (.mul (.lit 3333333333333333 10000000000000000) (.var 3)) (.var 4)) (.var 1)))),
  .mul (.mul (.lit 1778781183844713 1000000000000000) (.coef 73)) (.xor (.mul (.mul (.var 4) (.var 1)) (.var 2)) (.sub (.lit 2 1) (.mul (.mul (.lit 3333333333333333 10000000000000000) (.var 4)) (.var 1)))),
  .mul (.mul (.lit 1778781183844713 1000000000000000) (.coef 64)) (.xor (.mul (.mul (.var 3) (.var 1)) (.var 2)) (.sub (.lit 2 1) (.mul (.mul (.lit 3333333333333333 10000000000000000) (.var 3)) (.var 1)))),
  .mul (.mul (.lit 1026979795322186 1000000000000000) (.coef 36)) (.xor (.mul (.var 1) (.var 2)) (.sub (.lit 2 1) (.mul (.lit 3333333333333333 10000000000000000) (.var 1)))),
  .mul (.mul (.lit 3080939385966558 1000000000000000) (.coef 98)) (.xor (.mul (.mul (.mul (.var 3) (.var 4)) (.var 0)) (.var 2)) (.sub (.lit 2 1) (.mul (.mul (.mul (.lit 3333333333333333 10000000000000000) (.var 3)) (.var 4)) (.var 0)))),
  .mul (.mul (.lit 1778781183844713 1000000000000000) (.coef 72)) (.xor (.mul (.mul (.var 4) (.var 0)) (.var 2)) (.sub (.lit 2 1) (.mul (.mul (.lit 3333333333333333 10000000000000000) (.var 4)) (.var 0)))),
  .mul (.mul (.lit 1778781183844713 1000000000000000) (.coef 63)) (.xor (.mul (.mul (.var 3) (.var 0)) (.var 2)) (.sub (.lit 2 1) (.mul (.mul (.lit 3333333333333333 10000000000000000) (.var 3)) (.var 0)))),
  .mul (.mul (.lit 1026979795322186 1000000000000000) (.coef 35)) (.xor (.mul (.var 0) (.var 2)) (.sub (.lit 2 1) (.mul (.lit 3333333333333333 10000000000000000) (.var 0)))),
  .mul (.mul (.lit 1778781183844713 1000000000000000) (.coef 76)) (.xor (.mul (.mul (.var 3) (.var 4)) (.var 2)) (.sub (.lit 2 1) (.mul (.mul (.lit 3333333333333333 10000000000000000) (.var 3)) (.var 4)))),
  .mul (.mul (.lit 1026979795322186 1000000000000000) (.coef 45)) (.xor (.mul (.var 4) (.var 2)) (.sub (.lit 2 1) (.mul (.lit 3333333333333333 10000000000000000) (.var 4)))),
  .mul (.mul (.lit 1026979795322186 1000000000000000) (.coef 39)) (.xor (.mul (.var 3) (.var 2)) (.sub (.lit 2 1) (.mul (.lit 3333333333333333 10000000000000000) (.var 3)))),
  .mul (.mul (.lit 592927061281571 1000000000000000) (.coef 18)) (.xor (.var 2) (.sub (.lit 2 1) (.lit 3333333333333333 10000000000000000))),
  .mul (.mul (.lit 5336343551534138 1000000000000000) (.coef 108)) (.xor (.mul (.mul (.mul (.var 3) (.var 4)) (.var 0)) (.var 1)) (.sub (.mul (.lit 2 1) (.var 2)) (.mul (.mul (.mul (.mul (.lit 3333333333333333 10000000000000000) (.var 3)) (.var 4)) (.var 0)) (.var 2)))),
  .mul (.mul (.lit 3080939385966558 1000000000000000) (.coef 92)) (.xor (.mul (.mul (.var 4) (.var 0)) (.var 1)) (.sub (.mul (.lit 2 1) (.var 2)) (.mul (.mul (.mul (.lit 3333333333333333 10000000000000000) (.var 4)) (.var 0)) (.var 2)))),
  .mul (.mul (.lit 3080939385966558 1000000000000000) (.coef 88)) (.xor (.mul (.mul (.var 3) (.var 0)) (.var 1)) (.sub (.mul (.lit 2 1) (.var 2)) (.mul (.mul (.mul (.lit 3333333333333333 10000000000000000) (.var 3)) (.var 0)) (.var 2)))),
  .mul (.mul (.lit 1778781183844713 1000000000000000) (.coef 57)) (.xor (.mul (.var 0) (.var 1)) (.sub (.mul (.lit 2 1) (.var 2)) (.mul (.mul (.lit 3333333333333333 10000000000000000) (.var 0)) (.var 2)))),
  .mul (.mul (.lit 3080939385966558 1000000000000000) (.coef 97)) (.xor (.mul (.mul (.var 3) (.var 4)) (.var 1)) (.sub (.mul (.lit 2 1) (.var 2)) (.mul (.mul (.mul (.lit 3333333333333333 10000000000000000) (.var 3)) (.var 4)) (.var 2)))),
  .mul (.mul (.lit 1778781183844713 1000000000000000) (.coef 71)) (.xor (.mul (.var 4) (.var 1)) (.sub (.mul (.lit 2 1) (.var 2)) (.mul (.mul (.lit 3333333333333333 10000000000000000) (.var 4)) (.var 2)))),
  .mul (.mul (.lit 1778781183844713 1000000000000000) (.coef 62)) (.xor (.mul (.var 3) (.var 1)) (.sub (.mul (.lit 2 1) (.var 2)) (.mul (.mul (.lit 3333333333333333 10000000000000000) (.var 3)) (.var 2)))),
  .mul (.mul (.lit 1026979795322186 1000000000000000) (.coef 34)) (.xor (.var 1) (.sub (.mul (.lit 2 1) (.var 2)) (.mul (.lit 3333333333333333 10000000000000000) (.var 2)))),
  .mul (.mul (.lit 5336343551534138 1000000000000000) (.coef 107)) (.xor (.mul (.mul (.var 3) (.var 4)) (.var 0)) (.sub (.mul (.mul (.lit 2 1) (.var 1)) (.var 2)) (.mul (.mul (.mul (.mul (.lit 3333333333333333 10000000000000000) (.var 3)) (.var 4)) (.var 1)) (.var 2)))),
  .mul (.mul (.lit 3080939385966558 1000000000000000) (.coef 91)) (.xor (.mul (.var 4) (.var 0)) (.sub (.mul (.mul (.lit 2 1) (.var 1)) (.var 2)) (.mul (.mul (.mul (.lit 3333333333333333 10000000000000000) (.var 4)) (.var 1)) (.var 2)))),
  .mul (.mul (.lit 3080939385966558 1000000000000000) (.coef 87)) (.xor (.mul (.var 3) (.var 0)) (.sub (.mul (.mul (.lit 2 1) (.var 1)) (.var 2)) (.mul (.mul (.mul (.lit 3333333333333333 10000000000000000) (.var 3)) (.var 1)) (.var 2)))),
  .mul (.mul (.lit 1778781183844713 1000000000000000) (.coef 56)) (.xor (.var 0) (.sub (.mul (.mul (.lit 2 1) (.var 1)) (.var 2)) (.mul (.mul (.lit 3333333333333333 10000000000000000) (.var 1)) (.var 2)))),
  .mul (.mul (.lit 5336343551534138 1000000000000000) (.coef 111)) (.xor (.mul (.var 3) (.var 4)) (.sub (.mul (.mul (.mul (.lit 2 1) (.var 0)) (.var 1)) (.var 2)) (.mul (.mul (.mul (.mul (.lit 3333333333333333 10000000000000000) (.var 3)) (.var 0)) (.var 1)) (.var 2)))),
  .mul (.mul (.lit 3080939385966558 1000000000000000) (.coef 103)) (.xor (.var 4) (.sub (.mul (.mul (.mul (.lit 2 1) (.var 0)) (.var 1)) (.var 2)) (.mul (.mul (.mul (.lit 3333333333333333 10000000000000000) (.var 0)) (.var 1)) (.var 2)))),
  .mul (.mul (.lit 5336343551534138 1000000000000000) (.coef 110)) (.xor (.var 3) (.sub (.mul (.mul (.mul (.mul (.lit 2 1) (.var 4)) (.var 0)) (.var 1)) (.var 2)) (.mul (.mul (.mul (.mul (.lit 3333333333333333 10000000000000000) (.var 4)) (.var 0)) (.var 1)) (.var 2)))),
  .mul (.mul (.lit 3080939385966558 1000000000000000) (.coef 90)) (.xor (.var 3) (.sub (.mul (.mul (.mul (.lit 2 1) (.var 0)) (.var 1)) (.var 2)) (.mul (.mul (.mul (.lit 3333333333333333 10000000000000000) (.var 0)) (.var 1)) (.var 2)))),
  .mul (.mul (.lit 3080939385966558 1000000000000000) (.coef 106)) (.xor (.mul (.var 3) (.var 4)) (.sub (.mul (.mul (.lit 2 1) (.var 1)) (.var 2)) (.mul (.mul (.mul (.lit 3333333333333333 10000000000000000) (.var 3)) (.var 1)) (.var 2)))),
  .mul (.mul (.lit 1778781183844713 1000000000000000) (.coef 82)) (.xor (.var 4) (.sub (.mul (.mul (.lit 2 1) (.var 1)) (.var 2)) (.mul (.mul (.lit 3333333333333333 10000000000000000) (.var 1)) (.var 2)))),
  .mul (.mul (.lit 3080939385966558 1000000000000000) (.coef 102)) (.xor (.var 3) (.sub (.mul (.mul (.mul (.lit 2 1) (.var 4)) (.var 1)) (.var 2)) (.mul (.mul (.mul (.lit 3333333333333333 10000000000000000) (.var 4)) (.var 1)) (.var 2)))),
  .mul (.mul (.lit 1778781183844713 1000000000000000) (.coef 67)) (.xor (.var 3) (.sub (.mul (.mul (.lit 2 1) (.var 1)) (.var 2)) (.mul (.mul (.lit 3333333333333333 10000000000000000) (.var 1)) (.var 2)))),
  .mul (.mul (.lit 3080939385966558 1000000000000000) (.coef 96)) (.xor (.mul (.mul (.var 3) (.var 4)) (.var 0)) (.sub (.mul (.lit 2 1) (.var 2)) (.mul (.mul (.mul (.lit 3333333333333333 10000000000000000) (.var 3)) (.var 4)) (.var 2)))),
  .mul (.mul (.lit 1778781183844713 1000000000000000) (.coef 70)) (.xor (.mul (.var 4) (.var 0)) (.sub (.mul (.lit 2 1) (.var 2)) (.mul (.mul (.lit 3333333333333333 10000000000000000) (.var 4)) (.var 2)))),
  .mul (.mul (.lit 1778781183844713 1000000000000000) (.coef 61)) (.xor (.mul (.var 3) (.var 0)) (.sub (.mul (.lit 2 1) (.var 2)) (.mul (.mul (.lit 3333333333333333 10000000000000000) (.var 3)) (.var 2)))),
  .mul (.mul (.lit 1026979795322186 1000000000000000) (.coef 33)) (.xor (.var 0) (.sub (.mul (.lit 2 1) (.var 2)) (.mul (.lit 3333333333333333 10000000000000000) (.var 2)))),
  .mul (.mul (.lit 3080939385966558 1000000000000000) (.coef 105)) (.xor (.mul (.var 3) (.var 4)) (.sub (.mul (.mul (.lit 2 1) (.var 0)) (.var 2)) (.mul (.mul (.mul (.lit 3333333333333333 10000000000000000) (.var 3)) (.var 0)) (.var 2)))),
  .mul (.mul (.lit 1778781183844713 1000000000000000) (.coef 81)) (.xor (.var 4) (.sub (.mul (.mul (.lit 2 1) (.var 0)) (.var 2)) (.mul (.mul (.lit 3333333333333333 10000000000000000) (.var 0)) (.var 2)))),
  .mul (.mul (.lit 3080939385966558 1000000000000000) (.coef 101)) (.xor (.var 3) (.sub (.mul (.mul (.mul (.lit 2 1) (.var 4)) (.var 0)) (.var 2)) (.mul (.mul (.mul (.lit 3333333333333333 10000000000000000) (.var 4)) (.var 0)) (.var 2)))),
  .mul (.mul (.lit 1778781183844713 1000000000000000) (.coef 66)) (.xor (.var 3) (.sub (.mul (.mul (.lit 2 1) (.var 0)) (.var 2)) (.mul (.mul (.lit 3333333333333333 10000000000000000) (.var 0)) (.var 2)))),
  .mul (.mul (.lit 1778781183844713 1000000000000000) (.coef 85)) (.xor (.mul (.var 3) (.var 4)) (.sub (.mul (.lit 2 1) (.var 2)) (.mul (.mul (.lit 3333333333333333 10000000000000000) (.var 3)) (.var 2)))),
  .mul (.mul (.lit 1026979795322186 1000000000000000) (.coef 49)) (.xor (.var 4) (.sub (.mul (.lit 2 1) (.var 2)) (.mul (.lit 3333333333333333 10000000000000000) (.var 2)))),
  .mul (.mul (.lit 1778781183844713 1000000000000000) (.coef 79)) (.xor (.var 3) (.sub (.mul (.mul (.lit 2 1) (.var 4)) (.var 2)) (.mul (.mul (.lit 3333333333333333 10000000000000000) (.var 4)) (.var 2)))),
  .mul (.mul (.lit 1026979795322186 1000000000000000) (.coef 42)) (.xor (.var 3) (.sub (.mul (.lit 2 1) (.var 2)) (.mul (.lit 3333333333333333 10000000000000000) (.var 2)))),
  .mul (.mul (.mul (.mul (.mul (.mul (.lit 2755675960631073 1000000000000000) (.coef 86)) (.var 3)) (.var 4)) (.var 0)) (.var 1)) (.var 2),
  .mul (.mul (.mul (.mul (.mul (.lit 1590990257669731 1000000000000000) (.coef 52)) (.var 4)) (.var 0)) (.var 1)) (.var 2),
  .mul (.mul (.mul (.mul (.mul (.lit 1590990257669731 1000000000000000) (.coef 51)) (.var 3)) (.var 0)) (.var 1)) (.var 2),
  .mul (.mul (.mul (.mul (.lit 9185586535436913 10000000000000000) (.coef 21)) (.var 0)) (.var 1)) (.var 2),
  .mul (.mul (.mul (.mul (.mul (.lit 1590990257669731 1000000000000000) (.coef 55)) (.var 3)) (.var 4)) (.var 1)) (.var 2),
  .mul (.mul (.mul (.mul (.lit 9185586535436913 10000000000000000) (.coef 27)) (.var 4)) (.var 1)) (.var 2),
  .mul (.mul (.mul (.mul (.lit 9185586535436913 10000000000000000) (.coef 24)) (.var 3)) (.var 1)) (.var 2),
  .mul (.mul (.mul (.lit 5303300858899105 10000000000000000) (.coef 8)) (.var 1)) (.var 2),
  .mul (.mul (.mul (.mul (.mul (.lit 1590990257669731 1000000000000000) (.coef 54)) (.var 3)) (.var 4)) (.var 0)) (.var 2),
  .mul (.mul (.mul (.mul (.lit 9185586535436913 10000000000000000) (.coef 26)) (.var 4)) (.var 0)) (.var 2),
  .mul (.mul (.mul (.mul (.lit 9185586535436913 10000000000000000) (.coef 23)) (.var 3)) (.var 0)) (.var 2),
  .mul (.mul (.mul (.lit 5303300858899105 10000000000000000) (.coef 7)) (.var 0)) (.var 2),
  .mul (.mul (.mul (.mul (.lit 9185586535436913 10000000000000000) (.coef 30)) (.var 3)) (.var 4)) (.var 2),
  .mul (.mul (.mul (.lit 5303300858899105 10000000000000000) (.coef 14)) (.var 4)) (.var 2),
  .mul (.mul (.mul (.lit 5303300858899105 10000000000000000) (.coef 11)) (.var 3)) (.var 2),
  .mul (.mul (.lit 3061862178478971 10000000000000000) (.coef 3)) (.var 2),
  .mul (.mul (.lit 3080939385966558 1000000000000000) (.coef 95)) (.xor (.mul (.mul (.mul (.var 3) (.var 4)) (.var 0)) (.var 1)) (.sub (.lit 2 1) (.mul (.mul (.mul (.lit 3333333333333333 10000000000000000) (.var 3)) (.var 4)) (.var 0)))),
  .mul (.mul (.lit 1778781183844713 1000000000000000) (.coef 69)) (.xor (.mul (.mul (.var 4) (.var 0)) (.var 1)) (.sub (.lit 2 1) (.mul (.mul (.lit 3333333333333333 10000000000000000) (.var 4)) (.var 0)))),
  .mul (.mul (.lit 1778781183844713 1000000000000000) (.coef 60)) (.xor (.mul (.mul (.var 3) (.var 0)) (.var 1)) (.sub (.lit 2 1) (.mul (.mul (.lit 3333333333333333 10000000000000000) (.var 3)) (.var 0)))),
  .mul (.mul (.lit 1026979795322186 1000000000000000) (.coef 32)) (.xor (.mul (.var 0) (.var 1)) (.sub (.lit 2 1) (.mul (.lit 3333333333333333 10000000000000000) (.var 0)))),
  .mul (.mul (.lit 1778781183844713 1000000000000000) (.coef 75)) (.xor (.mul (.mul (.var 3) (.var 4)) (.var 1)) (.sub (.lit 2 1) (.mul (.mul (.lit 3333333333333333 10000000000000000) (.var 3)) (.var 4)))),
  .mul (.mul (.lit 1026979795322186 1000000000000000) (.coef 44)) (.xor (.mul (.var 4) (.var 1)) (.sub (.lit 2 1) (.mul (.lit 3333333333333333 10000000000000000) (.var 4)))),
  .mul (.mul (.lit 1026979795322186 1000000000000000) (.coef 38)) (.xor (.mul (.var 3) (.var 1)) (.sub (.lit 2 1) (.mul (.lit 3333333333333333 10000000000000000) (.var 3)))),
  .mul (.mul (.lit 592927061281571 1000000000000000) (.coef 17)) (.xor (.var 1) (.sub (.lit 2 1) (.lit 3333333333333333 10000000000000000))),
  .mul (.mul (.lit 3080939385966558 1000000000000000) (.coef 94)) (.xor (.mul (.mul (.var 3) (.var 4)) (.var 0)) (.sub (.mul (.lit 2 1) (.var 1)) (.mul (.mul (.mul (.lit 3333333333333333 10000000000000000) (.var 3)) (.var 4)) (.var 1)))),
  .mul (.mul (.lit 1778781183844713 1000000000000000) (.coef 68)) (.xor (.mul (.var 4) (.var 0)) (.sub (.mul (.lit 2 1) (.var 1)) (.mul (.mul (.lit 3333333333333333 10000000000000000) (.var 4)) (.var 1)))),
  .mul (.mul (.lit 1778781183844713 1000000000000000) (.coef 59)) (.xor (.mul (.var 3) (.var 0)) (.sub (.mul (.lit 2 1) (.var 1)) (.mul (.mul (.lit 3333333333333333 10000000000000000) (.var 3)) (.var 1)))),
  .mul (.mul (.lit 1026979795322186 1000000000000000) (.coef 31)) (.xor (.var 0) (.sub (.mul (.lit 2 1) (.var 1)) (.mul (.lit 3333333333333333 10000000000000000) (.var 1)))),
  .mul (.mul (.lit 3080939385966558 1000000000000000) (.coef 104)) (.xor (.mul (.var 3) (.var 4)) (.sub (.mul (.mul (.lit 2 1) (.var 0)) (.var 1)) (.mul (.mul (.mul (.lit 3333333333333333 10000000000000000) (.var 3)) (.var 0)) (.var 1)))),
  .mul (.mul (.lit 1778781183844713 1000000000000000) (.coef 80)) (.xor (.var 4) (.sub (.mul (.mul (.lit 2 1) (.var 0)) (.var 1)) (.mul (.mul (.lit 3333333333333333 10000000000000000) (.var 0)) (.var 1)))),
  .mul (.mul (.lit 3080939385966558 1000000000000000) (.coef 100)) (.xor (.var 3) (.sub (.mul (.mul (.mul (.lit 2 1) (.var 4)) (.var 0)) (.var 1)) (.mul (.mul (.mul (.lit 3333333333333333 10000000000000000) (.var 4)) (.var 0)) (.var 1)))),
  .mul (.mul (.lit 1778781183844713 1000000000000000) (.coef 65)) (.xor (.var 3) (.sub (.mul (.mul (.lit 2 1) (.var 0)) (.var 1)) (.mul (.mul (.lit 3333333333333333 10000000000000000) (.var 0)) (.var 1)))),
  .mul (.mul (.lit 1778781183844713 1000000000000000) (.coef 84)) (.xor (.mul (.var 3) (.var 4)) (.sub (.mul (.lit 2 1) (.var 1)) (.mul (.mul (.lit 3333333333333333 10000000000000000) (.var 3)) (.var 1)))),
  .mul (.mul (.lit 1026979795322186 1000000000000000) (.coef 48)) (.xor (.var 4) (.sub (.mul (.lit 2 1) (.var 1)) (.mul (.lit 3333333333333333 10000000000000000) (.var 1)))),
  .mul (.mul (.lit 1778781183844713 1000000000000000) (.coef 78)) (.xor (.var 3) (.sub (.mul (.mul (.lit 2 1) (.var 4)) (.var 1)) (.mul (.mul (.lit 3333333333333333 10000000000000000) (.var 4)) (.var 1)))),
  .mul (.mul (.lit 1026979795322186 1000000000000000) (.coef 41)) (.xor (.var 3) (.sub (.mul (.lit 2 1) (.var 1)) (.mul (.lit 3333333333333333 10000000000000000) (.var 1)))),
  .mul (.mul (.mul (.mul (.mul (.lit 1590990257669731 1000000000000000) (.coef 53)) (.var 3)) (.var 4)) (.var 0)) (.var 1),
  .mul (.mul (.mul (.mul (.lit 9185586535436913 10000000000000000) (.coef 25)) (.var 4)) (.var 0)) (.var 1),
  .mul (.mul (.mul (.mul (.lit 9185586535436913 10000000000000000) (.coef 22)) (.var 3)) (.var 0)) (.var 1),
  .mul (.mul (.mul (.lit 5303300858899105 10000000000000000) (.coef 6)) (.var 0)) (.var 1),
  .mul (.mul (.mul (.mul (.lit 9185586535436913 10000000000000000) (.coef 29)) (.var 3)) (.var 4)) (.var 1),
  .mul (.mul (.mul (.lit 5303300858899105 10000000000000000) (.coef 13)) (.var 4)) (.var 1),
  .mul (.mul (.mul (.lit 5303300858899105 10000000000000000) (.coef 10)) (.var 3)) (.var 1),
  .mul (.mul (.lit 3061862178478971 10000000000000000) (.coef 2)) (.var 1),
  .mul (.mul (.lit 1778781183844713 1000000000000000) (.coef 74)) (.xor (.mul (.mul (.var 3) (.var 4)) (.var 0)) (.sub (.lit 2 1) (.mul (.mul (.lit 3333333333333333 10000000000000000) (.var 3)) (.var 4)))),
  .mul (.mul (.lit 1026979795322186 1000000000000000) (.coef 43)) (.xor (.mul (.var 4) (.var 0)) (.sub (.lit 2 1) (.mul (.lit 3333333333333333 10000000000000000) (.var 4)))),
  .mul (.mul (.lit 1026979795322186 1000000000000000) (.coef 37)) (.xor (.mul (.var 3) (.var 0)) (.sub (.lit 2 1) (.mul (.lit 3333333333333333 10000000000000000) (.var 3)))),
  .mul (.mul (.lit 592927061281571 1000000000000000) (.coef 16)) (.xor (.var 0) (.sub (.lit 2 1) (.lit 3333333333333333 10000000000000000))),
  .mul (.mul (.lit 1778781183844713 1000000000000000) (.coef 83)) (.xor (.mul (.var 3) (.var 4)) (.sub (.mul (.lit 2 1) (.var 0)) (.mul (.mul (.lit 3333333333333333 10000000000000000) (.var 3)) (.var 0)))),
  .mul (.mul (.lit 1026979795322186 1000000000000000) (.coef 47)) (.xor (.var 4) (.sub (.mul (.lit 2 1) (.var 0)) (.mul (.lit 3333333333333333 10000000000000000) (.var 0)))),
  .mul (.mul (.lit 1778781183844713 1000000000000000) (.coef 77)) (.xor (.var 3) (.sub (.mul (.mul (.lit 2 1) (.var 4)) (.var 0)) (.mul (.mul (.lit 3333333333333333 10000000000000000) (.var 4)) (.var 0)))),
  .mul (.mul (.lit 1026979795322186 1000000000000000) (.coef 40)) (.xor (.var 3) (.sub (.mul (.lit 2 1) (.var 0)) (.mul (.lit 3333333333333333 10000000000000000) (.var 0)))),
  .mul (.mul (.mul (.mul (.lit 9185586535436913 10000000000000000) (.coef 28)) (.var 3)) (.var 4)) (.var 0),
  .mul (.mul (.mul (.lit 5303300858899105 10000000000000000) (.coef 12)) (.var 4)) (.var 0),
  .mul (.mul (.mul (.lit 5303300858899105 10000000000000000) (.coef 9)) (.var 3)) (.var 0),
  .mul (.mul (.lit 3061862178478971 10000000000000000) (.coef 1)) (.var 0),
  .mul (.mul (.lit 1026979795322186 1000000000000000) (.coef 50)) (.xor (.mul (.var 3) (.var 4)) (.sub (.lit 2 1) (.mul (.lit 3333333333333333 10000000000000000) (.var 3)))),
  .mul (.mul (.lit 592927061281571 1000000000000000) (.coef 20)) (.xor (.var 4) (.sub (.lit 2 1) (.lit 3333333333333333 10000000000000000))),
  .mul (.mul (.lit 1026979795322186 1000000000000000) (.coef 46)) (.xor (.var 3) (.sub (.mul (.lit 2 1) (.var 4)) (.mul (.lit 3333333333333333 10000000000000000) (.var 4)))),
  .mul (.mul (.mul (.lit 5303300858899105 10000000000000000) (.coef 15)) (.var 3)) (.var 4),
  .mul (.mul (.lit 3061862178478971 10000000000000000) (.coef 5)) (.var 4),
  .mul (.mul (.lit 592927061281571 1000000000000000) (.coef 19)) (.xor (.var 3) (.sub (.lit 2 1) (.lit 3333333333333333 10000000000000000))),
  .mul (.mul (.lit 3061862178478971 10000000000000000) (.coef 4)) (.var 3),
  .mul (.lit 1767766952966368 10000000000000000) (.coef 0)]

/-- expand5d.py:217-477, arguments f, x, y, z, vx, vy. -/
def expand5d3p : Option (List Expr) := some [
  .mul (.mul (.lit 1052341140030171 100000000000000) (.coef 189)) (.xor (.mul (.mul (.mul (.mul (.var 3) (.var 4)) (.var 0)) (.var 1)) (.var 2)) (.sub (.lit 3 1) (.mul (.mul (.mul (.mul (.mul (.lit 6 10) (.var 3)) (.var 4)) (.var 0)) (.var 1)) (.var 2)))),
  .mul (.mul (.lit 6075694404757366 1000000000000000) (.coef 173)) (.xor (.mul (.mul (.mul (.var 4) (.var 0)) (.var 1)) (.var 2)) (.sub (.lit 3 1) (.mul (.mul (.mul (.mul (.lit 6 10) (.var 4)) (.var 0)) (.var 1)) (.var 2)))),
  .mul (.mul (.lit 6075694404757366 1000000000000000) (.coef 169)) (.xor (.mul (.mul (.mul (.var 3) (.var 0)) (.var 1)) (.var 2)) (.sub (.lit 3 1) (.mul (.mul (.mul (.mul (.lit 6 10) (.var 3)) (.var 0)) (.var 1)) (.var 2)))),
  .mul (.mul (.lit 3507803800100568 1000000000000000) (.coef 134)) (.xor (.mul (.mul (.var 0) (.var 1)) (.var 2)) (.sub (.lit 3 1) (.mul (.mul (.mul (.lit 6 10) (.var 0)) (.var 1)) (.var 2)))),
  .mul (.mul (.lit 6075694404757366 1000000000000000) (.coef 179)) (.xor (.mul (.mul (.mul (.var 3) (.var 4)) (.var 1)) (.var 2)) (.sub (.lit 3 1) (.mul (.mul (.mul (.mul (.lit 6 10) (.var 3)) (.var 4)) (.var 1)) (.var 2)))),
  .mul (.mul (.lit 3507803800100568 1000000000000000) (.coef 149)) (.xor (.mul (.mul (.var 4) (.var 1)) (.var 2)) (.sub (.lit 3 1) (.mul (.mul (.mul (.lit 6 10) (.var 4)) (.var 1)) (.var 2)))),
  .mul (.mul (.lit 3507803800100568 1000000000000000) (.coef 140)) (.xor (.mul (.mul (.var 3) (.var 1)) (.var 2)) (.sub (.lit 3 1) (.mul (.mul (.mul (.lit 6 10) (.var 3)) (.var 1)) (.var 2)))),
  .mul (.mul (.lit 2025231468252455 1000000000000000) (.coef 96)) (.xor (.mul (.var 1) (.var 2)) (.sub (.lit 3 1) (.mul (.mul (.lit 6 10) (.var 1)) (.var 2)))),
  .mul (.mul (.lit 6075694404757366 1000000000000000) (.coef 178)) (.xor (.mul (.mul (.mul (.var 3) (.var 4)) (.var 0)) (.var 2)) (.sub (.lit 3 1) (.mul (.mul (.mul (.mul (.lit 6 10) (.var 3)) (.var 4)) (.var 0)) (.var 2)))),
  .mul (.mul (.lit 3507803800100568 1000000000000000) (.coef 148)) (.xor (.mul (.mul (.var 4) (.var 0)) (.var 2)) (.sub (.lit 3 1) (.mul (.mul (.mul (.lit 6 10) (.var 4)) (.var 0)) (.var 2)))),
  .mul (.mul (.lit 3507803800100568 1000000000000000) (.coef 139)) (.xor (.mul (.mul (.var 3) (.var 0)) (.var 2)) (.sub (.lit 3 1) (.mul (.mul (.mul (.lit 6 10) (.var 3)) (.var 0)) (.var 2)))),
  .mul (.mul (.lit 2025231468252455 1000000000000000) (.coef 95)) (.xor (.mul (.var 0) (.var 2)) (.sub (.lit 3 1) (.mul (.mul (.lit 6 10) (.var 0)) (.var 2)))),
  .mul (.mul (.lit 3507803800100568 1000000000000000) (.coef 152)) (.xor (.mul (.mul (.var 3) (.var 4)) (.var 2)) (.sub (.lit 3 1) (.mul (.mul (.mul (.lit 6 10) (.var 3)) (.var 4)) (.var 2)))),
  .mul (.mul (.lit 2025231468252455 1000000000000000) (.coef 105)) (.xor (.mul (.var 4) (.var 2)) (.sub (.lit 3 1) (.mul (.mul (.lit 6 10) (.var 4)) (.var 2)))),
  .mul (.mul (.lit 2025231468252455 1000000000000000) (.coef 99)) (.xor (.mul (.var 3) (.var 2)) (.sub (.lit 3 1) (.mul (.mul (.lit 6 10) (.var 3)) (.var 2)))),
  .mul (.mul (.lit 1169267933366856 1000000000000000) (.coef 53)) (.xor (.var 2) (.sub (.lit 3 1) (.mul (.lit 6 10) (.var 2)))),
  .mul (.mul (.lit 5336343551534138 1000000000000000) (.coef 164)) (.xor (.mul (.mul (.mul (.mul (.var 3) (.var 4)) (.var 0)) (.var 1)) (.var 2)) (.sub (.lit 2 1) (.mul (.mul (.mul (.mul (.lit 3333333333333333 10000000000000000) (.var 3)) (.var 4)) (.var 0)) (.var 1)))),
  .mul (.mul (.lit 3080939385966558 1000000000000000) (.coef 118)) (.xor (.mul (.mul (.mul (.var 4) (.var 0)) (.var 1)) (.var 2)) (.sub (.lit 2 1) (.mul (.mul (.mul (.lit 3333333333333333 10000000000000000) (.var 4)) (.var 0)) (.var 1)))),
  .mul (.mul (.lit 3080939385966558 1000000000000000) (.coef 114)) (.xor (.mul (.mul (.mul (.var 3) (.var 0)) (.var 1)) (.var 2)) (.sub (.lit 2 1) (.mul (.mul (.mul (.lit 3333333333333333 10000000000000000) (.var 3)) (.var 0)) (.var 1)))),
  .mul (.mul (.lit 1778781183844713 1000000000000000) (.coef 63)) (.xor (.mul (.mul (.var 0) (.var 1)) (.var 2)) (.sub (.lit 2 1) (.mul (.mul (.lit 3333333333333333 10000000000000000) (.var 0)) (.var 1)))),
  .mul (.mul (.lit 3080939385966558 1000000000000000) (.coef 124)) (.xor (.mul (.mul (.mul (.var 3) (.var 4)) (.var 1)) (.var 2)) (.sub (.lit 2 1) (.mul (.mul (.mul (.lit 3333333333333333 10000000000000000) (.var 3)) (.var 4)) (.var 1)))),
  .mul (.mul (.lit 1778781183844713 1000000000000000) (.coef 78)) (.xor (.mul (.mul (.var 4) (.var 1)) (.var 2)) (.sub (.lit 2 1) (.mul (.mul (.lit 3333333333333333 10000000000000000) (.var 4)) (.var 1)))),
  .mul (.mul (.lit 1778781183844713 1000000000000000) (.coef 69)) (.xor (.mul (.mul (.var 3) (.var 1)) (.var 2)) (.sub (.lit 2 1) (.mul (.mul (.lit 3333333333333333 10000000000000000) (.var 3)) (.var 1)))),
  .mul (.mul (.lit 1026979795322186 1000000000000000) (.coef 36)) (.xor (.mul (.var 1) (.var 2)) (.sub (.lit 2 1) (.mul (.lit 3333333333333333 10000000000000000) (.var 1)))),
  .mul (.mul (.lit 3080939385966558 1000000000000000) (.coef 123)) (.xor (.mul (.mul (.mul (.var 3) (.var 4)) (.var 0)) (.var 2)) (.sub (.lit 2 1) (.mul (.mul (.mul (.lit 3333333333333333 10000000000000000) (.var 3)) (.var 4)) (.var 0)))),
  .mul (.mul (.lit 1778781183844713 1000000000000000) (.coef 77)) (.xor (.mul (.mul (.var 4) (.var 0)) (.var 2)) (.sub (.lit 2 1) (.mul (.mul (.lit 3333333333333333 10000000000000000) (.var 4)) (.var 0)))),
  .mul (.mul (.lit 1778781183844713 1000000000000000) (.coef 68)) (.xor (.mul (.mul (.var 3) (.var 0)) (.var 2)) (.sub (.lit 2 1) (.mul (.mul (.lit 3333333333333333 10000000000000000) (.var 3)) (.var 0)))),
  .mul (.mul (.lit 1026979795322186 1000000000000000) (.coef 35)) (.xor (.mul (.var 0) (.var 2)) (.sub (.lit 2 1) (.mul (.lit 3333333333333333 10000000000000000) (.var 0)))),
  .mul (.mul (.lit 1778781183844713 1000000000000000) (.coef 81)) (.xor (.mul (.mul (.var 3) (.var 4)) (.var 2)) (.sub (.lit 2 1) (.mul (.mul (.lit 3333333333333333 10000000000000000) (.var 3)) (.var 4)))),
  .mul (.mul (.lit 1026979795322186 1000000000000000) (.coef 45)) (.xor (.mul (.var 4) (.var 2)) (.sub (.lit 2 1) (.mul (.lit 3333333333333333 10000000000000000) (.var 4)))),
  .mul (.mul (.lit 1026979795322186 1000000000000000) (.coef 39)) (.xor (.mul (.var 3) (.var 2)) (.sub (.lit 2 1) (.mul (.lit 3333333333333333 10000000000000000) (.var 3)))),
  .mul (.mul (.lit 592927061281571 1000000000000000) (.coef 18)) (.xor (.var 2) (.sub (.lit 2 1) (.lit 3333333333333333 10000000000000000))),
  .mul (.mul (.lit 1052341140030171 100000000000000) (.coef 188)) (.xor (.mul (.mul (.mul (.var 3) (.var 4)) (.var 0)) (.var 1)) (.sub (.mul (.lit 3 1) (.var 2)) (.mul (.mul (.mul (.mul (.mul (.lit 6 10) (.var 3)) (.var 4)) (.var 0)) (.var 1)) (.var 2)))),
  .mul (.mul (.lit 6075694404757366 1000000000000000) (.coef 172)) (.xor (.mul (.mul (.var 4) (.var 0)) (.var 1)) (.sub (.mul (.lit 3 1) (.var 2)) (.mul (.mul (.mul (.mul (.lit 6 10) (.var 4)) (.var 0)) (.var 1)) (.var 2)))),
  .mul (.mul (.lit 6075694404757366 1000000000000000) (.coef 168)) (.xor (.mul (.mul (.var 3) (.var 0)) (.var 1)) (.sub (.mul (.lit 3 1) (.var 2)) (.mul (.mul (.mul (.mul (.lit 6 10) (.var 3)) (.var 0)) (.var 1)) (.var 2)))),
  .mul (.mul (.lit 3507803800100568 1000000000000000) (.coef 133)) (.xor (.mul (.var 0) (.var 1)) (.sub (.mul (.lit 3 1) (.var 2)) (.mul (.mul (.mul (.lit 6 10) (.var 0)) (.var 1)) (.var 2)))),
  .mul (.mul (.lit 6075694404757366 1000000000000000) (.coef 177)) (.xor (.mul (.mul (.var 3) (.var 4)) (.var 1)) (.sub (.mul (.lit 3 1) (.var 2)) (.mul (.mul (.mul (.mul (.lit 6 10) (.var 3)) (.var 4)) (.var 1)) (.var 2)))),
  .mul (.mul (.lit 3507803800100568 1000000000000000) (.coef 147)) (.xor (.mul (.var 4) (.var 1)) (.sub (.mul (.lit 3 1) (.var 2)) (.mul (.mul (.mul (.lit 6 10) (.var 4)) (.var 1)) (.var 2)))),
  .mul (.mul (.lit 3507803800100568 1000000000000000) (.coef 138)) (.xor (.mul (.var 3) (.var 1)) (.sub (.mul (.lit 3 1) (.var 2)) (.mul (.mul (.mul (.lit 6 10) (.var 3)) (.var 1)) (.var 2)))),
  .mul (.mul (.lit 2025231468252455 1000000000000000) (.coef 94)) (.xor (.var 1) (.sub (.mul (.lit 3 1) (.var 2)) (.mul (.mul (.lit 6 10) (.var 1)) (.var 2)))),
  .mul (.mul (.lit 5336343551534138 1000000000000000) (.coef 163)) (.xor (.mul (.mul (.mul (.var 3) (.var 4)) (.var 0)) (.var 1)) (.sub (.mul (.lit 2 1) (.var 2)) (.mul (.mul (.mul (.mul (.lit 3333333333333333 10000000000000000) (.var 3)) (.var 4)) (.var 0)) (.var 2)))),
  .mul (.mul (.lit 3080939385966558 1000000000000000) (.coef 117)) (.xor (.mul (.mul (.var 4) (.var 0)) (.var 1)) (.sub (.mul (.lit 2 1) (.var 2)) (.mul (.mul (.mul (.lit 3333333333333333 10000000000000000) (.var 4)) (.var 0)) (.var 2)))),
  .mul (.mul (.lit 3080939385966558 1000000000000000) (.coef 113)) (.xor (.mul (.mul (.var 3) (.var 0)) (.var 1)) (.sub (.mul (.lit 2 1) (.var 2)) (.mul (.mul (.mul (.lit 3333333333333333 10000000000000000) (.var 3)) (.var 0)) (.var 2)))),
  .mul (.mul (.lit 1778781183844713 1000000000000000) (.coef 62)) (.xor (.mul (.var 0) (.var 1)) (.sub (.mul (.lit 2 1) (.var 2)) (.mul (.mul (.lit 3333333333333333 10000000000000000) (.var 0)) (.var 2)))),
  .mul (.mul (.lit 3080939385966558 1000000000000000) (.coef 122)) (.xor (.mul (.mul (.var 3) (.var 4)) (.var 1)) (.sub (.mul (.lit 2 1) (.var 2)) (.mul (.mul (.mul (.lit 3333333333333333 10000000000000000) (.var 3)) (.var 4)) (.var 2)))),
  .mul (.mul (.lit 1778781183844713 1000000000000000) (.coef 76)) (.xor (.mul (.var 4) (.var 1)) (.sub (.mul (.lit 2 1) (.var 2)) (.mul (.mul (.lit 3333333333333333 10000000000000000) (.var 4)) (.var 2)))),
  .mul (.mul (.lit 1778781183844713 1000000000000000) (.coef 67)) (.xor (.mul (.var 3) (.var 1)) (.sub (.mul (.lit 2 1) (.var 2)) (.mul (.mul (.lit 3333333333333333 10000000000000000) (.var 3)) (.var 2)))),
  .mul (.mul (.lit 1026979795322186 1000000000000000) (.coef 34)) (.xor (.var 1) (.sub (.mul (.lit 2 1) (.var 2)) (.mul (.lit 3333333333333333 10000000000000000) (.var 2)))),
  .mul (.mul (.lit 1052341140030171 100000000000000) (.coef 187)) (.xor (.mul (.mul (.var 3) (.var 4)) (.var 0)) (.sub (.mul (.mul (.lit 3 1) (.var 1)) (.var 2)) (.mul (.mul (.mul (.mul (.mul (.lit 6 10) (.var 3)) (.var 4)) (.var 0)) (.var 1)) (.var 2)))),
  .mul (.mul (.lit 6075694404757366 1000000000000000) (.coef 171)) (.xor (.mul (.var 4) (.var 0)) (.sub (.mul (.mul (.lit 3 1) (.var 1)) (.var 2)) (.mul (.mul (.mul (.mul (.lit 6 10) (.var 4)) (.var 0)) (.var 1)) (.var 2)))),
  .mul (.mul (.lit 6075694404757366 1000000000000000) (.coef 167)) (.xor (.mul (.var 3) (.var 0)) (.sub (.mul (.mul (.lit 3 1) (.var 1)) (.var 2)) (.mul (.mul (.mul (.mul (.lit 6 10) (.var 3)) (.var 0)) (.var 1)) (.var 2)))),
  .mul (.mul (.lit 3507803800100568 1000000000000000) (.coef 132)) (.xor (.var 0) (.sub (.mul (.mul (.lit 3 1) (.var 1)) (.var 2)) (.mul (.mul (.mul (.lit 6 10) (.var 0)) (.var 1)) (.var 2)))),
  .mul (.mul (.lit 5336343551534138 1000000000000000) (.coef 162)) (.xor (.mul (.mul (.var 3) (.var 4)) (.var 0)) (.sub (.mul (.mul (.lit 2 1) (.var 1)) (.var 2)) (.mul (.mul (.mul (.mul (.lit 3333333333333333 10000000000000000) (.var 3)) (.var 4)) (.var 1)) (.var 2)))),
  .mul (.mul (.lit 3080939385966558 1000000000000000) (.coef 116)) (.xor (.mul (.var 4) (.var 0)) (.sub (.mul (.mul (.lit 2 1) (.var 1)) (.var 2)) (.mul (.mul (.mul (.lit 3333333333333333 10000000000000000) (.var 4)) (.var 1)) (.var 2)))),
  .mul (.mul (.lit 3080939385966558 1000000000000000) (.coef 112)) (.xor (.mul (.var 3) (.var 0)) (.sub (.mul (.mul (.lit 2 1) (.var 1)) (.var 2)) (.mul (.mul (.mul (.lit 3333333333333333 10000000000000000) (.var 3)) (.var 1)) (.var 2)))),
  .mul (.mul (.lit 1778781183844713 1000000000000000) (.coef 61)) (.xor (.var 0) (.sub (.mul (.mul (.lit 2 1) (.var 1)) (.var 2)) (.mul (.mul (.lit 3333333333333333 10000000000000000) (.var 1)) (.var 2)))),
  .mul (.mul (.lit 1052341140030171 100000000000000) (.coef 191)) (.xor (.mul (.var 3) (.var 4)) (.sub (.mul (.mul (.mul (.lit 3 1) (.var 0)) (.var 1)) (.var 2)) (.mul (.mul (.mul (.mul (.mul (.lit 6 10) (.var 3)) (.var 4)) (.var 0)) (.var 1)) (.var 2)))),
  .mul (.mul (.lit 6075694404757366 1000000000000000) (.coef 183)) (.xor (.var 4) (.sub (.mul (.mul (.mul (.lit 3 1) (.var 0)) (.var 1)) (.var 2)) (.mul (.mul (.mul (.mul (.lit 6 10) (.var 4)) (.var 0)) (.var 1)) (.var 2)))),
  .mul (.mul (.lit 5336343551534138 1000000000000000) (.coef 166)) (.xor (.mul (.var 3) (.var 4)) (.sub (.mul (.mul (.mul (.lit 2 1) (.var 0)) (.var 1)) (.var 2)) (.mul (.mul (.mul (.mul (.lit 3333333333333333 10000000000000000) (.var 3)) (.var 0)) (.var 1)) (.var 2)))),
  .mul (.mul (.lit 3080939385966558 1000000000000000) (.coef 128)) (.xor (.var 4) (.sub (.mul (.mul (.mul (.lit 2 1) (.var 0)) (.var 1)) (.var 2)) (.mul (.mul (.mul (.lit 3333333333333333 10000000000000000) (.var 0)) (.var 1)) (.var 2)))),
  .mul (.mul (.lit 1052341140030171 100000000000000) (.coef 190)) (.xor (.var 3) (.sub (.mul (.mul (.mul (.mul (.lit 3 1) (.var 4)) (.var 0)) (.var 1)) (.var 2)) (.mul (.mul (.mul (.mul (.mul (.lit 6 10) (.var 3)) (.var 4)) (.var 0)) (.var 1)) (.var 2)))),
  .mul (.mul (.lit 5336343551534138 1000000000000000) (.coef 165)) (.xor (.var 3) (.sub (.mul (.mul (.mul (.mul (.lit 2 1) (.var 4)) (.var 0)) (.var 1)) (.var 2)) (.mul (.mul (.mul (.mul (.lit 3333333333333333 10000000000000000) (.var 4)) (.var 0)) (.var 1)) (.var 2)))),
  .mul (.mul (.lit 6075694404757366 1000000000000000) (.coef 170)) (.xor (.var 3) (.sub (.mul (.mul (.mul (.lit 3 1) (.var 0)) (.var 1)) (.var 2)) (.mul (.mul (.mul (.mul (.lit 6 10) (.var 3)) (.var 0)) (.var 1)) (.var 2)))),
  .mul (.mul (.lit 3080939385966558 1000000000000000) (.coef 115)) (.xor (.var 3) (.sub (.mul (.mul (.mul (.lit 2 1) (.var 0)) (.var 1)) (.var 2)) (.mul (.mul (.mul (.lit 3333333333333333 10000000000000000) (.var 0)) (.var 1)) (.var 2)))),
  .mul (.mul (.lit 6075694404757366 1000000000000000) (.coef 186)) (.xor (.mul (.var 3) (.var 4)) (.sub (.mul (.mul (.lit 3 1) (.var 1)) (.var 2)) (.mul (.mul (.mul (.mul (.lit 6 10) (.var 3)) (.var 4)) (.var 1)) (.var 2)))),
  .mul (.mul (.lit 3507803800100568 1000000000000000) (.coef 158)) (.xor (.var 4) (.sub (.mul (.mul (.lit 3 1) (.var 1)) (.var 2)) (.mul (.mul (.mul (.lit 6 10) (.var 4)) (.var 1)) (.var 2)))),
  .mul (.mul (.lit 3080939385966558 1000000000000000) (.coef 131)) (.xor (.mul (.var 3) (.var 4)) (.sub (.mul (.mul (.lit 2 1) (.var 1)) (.var 2)) (.mul (.mul (.mul (.lit 3333333333333333 10000000000000000) (.var 3)) (.var 1)) (.var 2)))),
  .mul (.mul (.lit 1778781183844713 1000000000000000) (.coef 87)) (.xor (.var 4) (.sub (.mul (.mul (.lit 2 1) (.var 1)) (.var 2)) (.mul (.mul (.lit 3333333333333333 10000000000000000) (.var 1)) (.var 2)))),
  .mul (.mul (.lit 6075694404757366 1000000000000000) (.coef 182)) (.xor (.var 3) (.sub (.mul (.mul (.mul (.lit 3 1) (.var 4)) (.var 1)) (.var 2)) (.mul (.mul (.mul (.mul (.lit 6 10) (.var 3)) (.var 4)) (.var 1)) (.var 2)))),
  .mul (.mul (.lit 3080939385966558 1000000000000000) (.coef 127)) (.xor (.var 3) (.sub (.mul (.mul (.mul (.lit 2 1) (.var 4)) (.var 1)) (.var 2)) (.mul (.mul (.mul (.lit 3333333333333333 10000000000000000) (.var 4)) (.var 1)) (.var 2)))),
  .mul (.mul (.lit 3507803800100568 1000000000000000) (.coef 143)) (.xor (.var 3) (.sub (.mul (.mul (.lit 3 1) (.var 1)) (.var 2)) (.mul (.mul (.mul (.lit 6 10) (.var 3)) (.var 1)) (.var 2)))),
  .mul (.mul (.lit 1778781183844713 1000000000000000) (.coef 72)) (.xor (.var 3) (.sub (.mul (.mul (.lit 2 1) (.var 1)) (.var 2)) (.mul (.mul (.lit 3333333333333333 10000000000000000) (.var 1)) (.var 2)))),
  .mul (.mul (.lit 6075694404757366 1000000000000000) (.coef 176)) (.xor (.mul (.mul (.var 3) (.var 4)) (.var 0)) (.sub (.mul (.lit 3 1) (.var 2)) (.mul (.mul (.mul (.mul (.lit 6 10) (.var 3)) (.var 4)) (.var 0)) (.var 2)))),
  .mul (.mul (.lit 3507803800100568 1000000000000000) (.coef 146)) (.xor (.mul (.var 4) (.var 0)) (.sub (.mul (.lit 3 1) (.var 2)) (.mul (.mul (.mul (.lit 6 10) (.var 4)) (.var 0)) (.var 2)))),
  .mul (.mul (.lit 3507803800100568 1000000000000000) (.coef 137)) (.xor (.mul (.var 3) (.var 0)) (.sub (.mul (.lit 3 1) (.var 2)) (.mul (.mul (.mul (.lit 6 10) (.var 3)) (.var 0)) (.var 2)))),
  .mul (.mul (.lit 2025231468252455 1000000000000000) (.coef 93)) (.xor (.var 0) (.sub (.mul (.lit 3 1) (.var 2)) (.mul (.mul (.lit 6 10) (.var 0)) (.var 2)))),
  .mul (.mul (.lit 3080939385966558 1000000000000000) (.coef 121)) (.xor (.mul (.mul (.var 3) (.var 4)) (.var 0)) (.sub (.mul (.lit 2 1) (.var 2)) (.mul (.mul (.mul (.lit 3333333333333333 10000000000000000) (.var 3)) (.var 4)) (.var 2)))),
  .mul (.mul (.lit 1778781183844713 1000000000000000) (.coef 75)) (.xor (.mul (.var 4) (.var 0)) (.sub (.mul (.lit 2 1) (.var 2)) (.mul (.mul (.lit 3333333333333333 10000000000000000) (.var 4)) (.var 2)))),
  .mul (.mul (.lit 1778781183844713 1000000000000000) (.coef 66)) (.xor (.mul (.var 3) (.var 0)) (.sub (.mul (.lit 2 1) (.var 2)) (.mul (.mul (.lit 3333333333333333 10000000000000000) (.var 3)) (.var 2)))),
  .mul (.mul (.lit 1026979795322186 1000000000000000) (.coef 33)) (.xor (.var 0) (.sub (.mul (.lit 2 1) (.var 2)) (.mul (.lit 3333333333333333 10000000000000000) (.var 2)))),
  .mul (.mul (.lit 6075694404757366 1000000000000000) (.coef 185)) (.xor (.mul (.var 3) (.var 4)) (.sub (.mul (.mul (.lit 3 1) (.var 0)) (.var 2)) (.mul (.mul (.mul (.mul (.lit 6 10) (.var 3)) (.var 4)) (.var 0)) (.var 2)))),
  .mul (.mul (.lit 3507803800100568 1000000000000000) (.coef 157)) (.xor (.var 4) (.sub (.mul (.mul (.lit 3 1) (.var 0)) (.var 2)) (.mul (.mul (.mul (.lit 6 10) (.var 4)) (.var 0)) (.var 2)))),
  .mul (.mul (.lit 3080939385966558 1000000000000000) (.coef 130)) (.xor (.mul (.var 3) (.var 4)) (.sub (.mul (.mul (.lit 2 1) (.var 0)) (.var 2)) (.mul (.mul (.mul (.lit 3333333333333333 10000000000000000) (.var 3)) (.var 0)) (.var 2)))),
  .mul (.mul (.lit 1778781183844713 1000000000000000) (.coef 86)) (.xor (.var 4) (.sub (.mul (.mul (.lit 2 1) (.var 0)) (.var 2)) (.mul (.mul (.lit 3333333333333333 10000000000000000) (.var 0)) (.var 2)))),
  .mul (.mul (.lit 6075694404757366 1000000000000000) (.coef 181)) (.xor (.var 3) (.sub (.mul (.mul (.mul (.lit 3 1) (.var 4)) (.var 0)) (.var 2)) (.mul (.mul (.mul (.mul (.lit 6 10) (.var 3)) (.var 4)) (.var 0)) (.var 2)))),
  .mul (.mul (.lit 3080939385966558 1000000000000000) (.coef 126)) (.xor (.var 3) (.sub (.mul (.mul (.mul (.lit 2 1) (.var 4)) (.var 0)) (.var 2)) (.mul (.mul (.mul (.lit 3333333333333333 10000000000000000) (.var 4)) (.var 0)) (.var 2)))),
  .mul (.mul (.lit 3507803800100568 1000000000000000) (.coef 142)) (.xor (.var 3) (.sub (.mul (.mul (.lit 3 1) (.var 0)) (.var 2)) (.mul (.mul (.mul (.lit 6 10) (.var 3)) (.var 0)) (.var 2)))),
  .mul (.mul (.lit 1778781183844713 1000000000000000) (.coef 71)) (.xor (.var 3) (.sub (.mul (.mul (.lit 2 1) (.var 0)) (.var 2)) (.mul (.mul (.lit 3333333333333333 10000000000000000) (.var 0)) (.var 2)))),
  .mul (.mul (.lit 3507803800100568 1000000000000000) (.coef 161)) (.xor (.mul (.var 3) (.var 4)) (.sub (.mul (.lit 3 1) (.var 2)) (.mul (.mul (.mul (.lit 6 10) (.var 3)) (.var 4)) (.var 2)))),
  .mul (.mul (.lit 2025231468252455 1000000000000000) (.coef 109)) (.xor (.var 4) (.sub (.mul (.lit 3 1) (.var 2)) (.mul (.mul (.lit 6 10) (.var 4)) (.var 2)))),
  .mul (.mul (.lit 1778781183844713 1000000000000000) (.coef 90)) (.xor (.mul (.var 3) (.var 4)) (.sub (.mul (.lit 2 1) (.var 2)) (.mul (.mul (.lit 3333333333333333 10000000000000000) (.var 3)) (.var 2)))),
  .mul (.mul (.lit 1026979795322186 1000000000000000) (.coef 49)) (.xor (.var 4) (.sub (.mul (.lit 2 1) (.var 2)) (.mul (.lit 3333333333333333 10000000000000000) (.var 2)))),
  .mul (.mul (.lit 3507803800100568 1000000000000000) (.coef 155)) (.xor (.var 3) (.sub (.mul (.mul (.lit 3 1) (.var 4)) (.var 2)) (.mul (.mul (.mul (.lit 6 10) (.var 3)) (.var 4)) (.var 2)))),
  .mul (.mul (.lit 1778781183844713 1000000000000000) (.coef 84)) (.xor (.var 3) (.sub (.mul (.mul (.lit 2 1) (.var 4)) (.var 2)) (.mul (.mul (.lit 3333333333333333 10000000000000000) (.var 4)) (.var 2)))),
  .mul (.mul (.lit 2025231468252455 1000000000000000) (.coef 102)) (.xor (.var 3) (.sub (.mul (.lit 3 1) (.var 2)) (.mul (.mul (.lit 6 10) (.var 3)) (.var 2)))),
  .mul (.mul (.lit 1026979795322186 1000000000000000) (.coef 42)) (.xor (.var 3) (.sub (.mul (.lit 2 1) (.var 2)) (.mul (.lit 3333333333333333 10000000000000000) (.var 2)))),
  .mul (.mul (.mul (.mul (.mul (.mul (.lit 2755675960631073 1000000000000000) (.coef 111)) (.var 3)) (.var 4)) (.var 0)) (.var 1)) (.var 2),
  .mul (.mul (.mul (.mul (.mul (.lit 1590990257669731 1000000000000000) (.coef 57)) (.var 4)) (.var 0)) (.var 1)) (.var 2),
  .mul (.mul (.mul (.mul (.mul (.lit 1590990257669731 1000000000000000) (.coef 56)) (.var 3)) (.var 0)) (.var 1)) (.var 2),
  .mul (.mul (.mul (.mul (.lit 9185586535436913 10000000000000000) (.coef 21)) (.var 0)) (.var 1)) (.var 2),
  .mul (.mul (.mul (.mul (.mul (.lit 1590990257669731 1000000000000000) (.coef 60)) (.var 3)) (.var 4)) (.var 1)) (.var 2),
  .mul (.mul (.mul (.mul (.lit 9185586535436913 10000000000000000) (.coef 27)) (.var 4)) (.var 1)) (.var 2),
  .mul (.mul (.mul (.mul (.lit 9185586535436913 10000000000000000) (.coef 24)) (.var 3)) (.var 1)) (.var 2),
  .mul (.mul (.mul (.lit 5303300858899105 10000000000000000) (.coef 8)) (.var 1)) (.var 2),
  .mul (.mul (.mul (.mul (.mul (.lit 1590990257669731 1000000000000000) (.coef 59)) (.var 3)) (.var 4)) (.var 0)) (.var 2),
  .mul (.mul (.mul (.mul (.lit 9185586535436913 10000000000000000) (.coef 26)) (.var 4)) (.var 0)) (.var 2),
  .mul (.mul (.mul (.mul (.lit 9185586535436913 10000000000000000) (.coef 23)) (.var 3)) (.var 0)) (.var 2),
  .mul (.mul (.mul (.lit 5303300858899105 10000000000000000) (.coef 7)) (.var 0)) (.var 2),
  .mul (.mul (.mul (.mul (.lit 9185586535436913 10000000000000000) (.coef 30)) (.var 3)) (.var 4)) (.var 2),
  .mul (.mul (.mul (.lit 5303300858899105 10000000000000000) (.coef 14)) (.var 4)) (.var 2),
  .mul (.mul (.mul (.lit 5303300858899105 10000000000000000) (.coef 11)) (.var 3)) (.var 2),
  .mul (.mul (.lit 3061862178478971 10000000000000000) (.coef 3)) (.var 2),
  .mul (.mul (.lit 6075694404757366 1000000000000000) (.coef 175)) (.xor (.mul (.mul (.mul (.var 3) (.var 4)) (.var 0)) (.var 1)) (.sub (.lit 3 1) (.mul (.mul (.mul (.mul (.lit 6 10) (.var 3)) (.var 4)) (.var 0)) (.var 1)))),
  .mul (.mul (.lit 3507803800100568 1000000000000000) (.coef 145)) (.xor (.mul (.mul (.var 4) (.var 0)) (.var 1)) (.sub (.lit 3 1) (.mul (.mul (.mul (.lit 6 10) (.var 4)) (.var 0)) (.var 1)))),
  .mul (.mul (.lit 3507803800100568 1000000000000000) (.coef 136)) (.xor (.mul (.mul (.var 3) (.var 0)) (.var 1)) (.sub (.lit 3 1) (.mul (.mul (.mul (.lit 6 10) (.var 3)) (.var 0)) (.var 1)))),
  .mul (.mul (.lit 2025231468252455 1000000000000000) (.coef 92)) (.xor (.mul (.var 0) (.var 1)) (.sub (.lit 3 1) (.mul (.mul (.lit 6 10) (.var 0)) (.var 1)))),
  .mul (.mul (.lit 3507803800100568 1000000000000000) (.coef 151)) (.xor (.mul (.mul (.var 3) (.var 4)) (.var 1)) (.sub (.lit 3 1) (.mul (.mul (.mul (.lit 6 10) (.var 3)) (.var 4)) (.var 1)))),
  .mul (.mul (.lit 2025231468252455 1000000000000000) (.coef 104)) (.xor (.mul (.var 4) (.var 1)) (.sub (.lit 3 1) (.mul (.mul (.lit 6 10) (.var 4)) (.var 1)))),
  .mul (.mul (.lit 2025231468252455 1000000000000000) (.coef 98)) (.xor (.mul (.var 3) (.var 1)) (.sub (.lit 3 1) (.mul (.mul (.lit 6 10) (.var 3)) (.var 1)))),
  .mul (.mul (.lit 1169267933366856 1000000000000000) (.coef 52)) (.xor (.var 1) (.sub (.lit 3 1) (.mul (.lit 6 10) (.var 1)))),
  .mul (.mul (.lit 3080939385966558 1000000000000000) (.coef 120)) (.xor (.mul (.mul (.mul (.var 3) (.var 4)) (.var 0)) (.var 1)) (.sub (.lit 2 1) (.mul (.mul (.mul (.lit 3333333333333333 10000000000000000) (.var 3)) (.var 4)) (.var 0)))),
  .mul (.mul (.lit 1778781183844713 1000000000000000) (.coef 74)) (.xor (.mul (.mul (.var 4) (.var 0)) (.var 1)) (.sub (.lit 2 1) (.mul (.mul (.lit 3333333333333333 10000000000000000) (.var 4)) (.var 0)))),
  .mul (.mul (.lit 1778781183844713 1000000000000000) (.coef 65)) (.xor (.mul (.mul (.var 3) (.var 0)) (.var 1)) (.sub (.lit 2 1) (.mul (.mul (.lit 3333333333333333 10000000000000000) (.var 3)) (.var 0)))),
  .mul (.mul (.lit 1026979795322186 1000000000000000) (.coef 32)) (.xor (.mul (.var 0) (.var 1)) (.sub (.lit 2 1) (.mul (.lit 3333333333333333 10000000000000000) (.var 0)))),
  .mul (.mul (.lit 1778781183844713 1000000000000000) (.coef 80)) (.xor (.mul (.mul (.var 3) (.var 4)) (.var 1)) (.sub (.lit 2 1) (.mul (.mul (.lit 3333333333333333 10000000000000000) (.var 3)) (.var 4)))),
  .mul (.mul (.lit 1026979795322186 1000000000000000) (.coef 44)) (.xor (.mul (.var 4) (.var 1)) (.sub (.lit 2 1) (.mul (.lit 3333333333333333 10000000000000000) (.var 4)))),
  .mul (.mul (.lit 1026979795322186 1000000000000000) (.coef 38)) (.xor (.mul (.var 3) (.var 1)) (.sub (.lit 2 1) (.mul (.lit 3333333333333333 10000000000000000) (.var 3)))),
  .mul (.mul (.lit 592927061281571 1000000000000000) (.coef 17)) (.xor (.var 1) (.sub (.lit 2 1) (.lit 3333333333333333 10000000000000000))),
  .mul (.mul (.lit 6075694404757366 1000000000000000) (.coef 174)) (.xor (.mul (.mul (.var 3) (.var 4)) (.var 0)) (.sub (.mul (.lit 3 1) (.var 1)) (.mul (.mul (.mul (.mul (.lit 6 10) (.var 3)) (.var 4)) (.var 0)) (.var 1)))),
  .mul (.mul (.lit 3507803800100568 1000000000000000) (.coef 144)) (.xor (.mul (.var 4) (.var 0)) (.sub (.mul (.lit 3 1) (.var 1)) (.mul (.mul (.mul (.lit 6 10) (.var 4)) (.var 0)) (.var 1)))),
  .mul (.mul (.lit 3507803800100568 1000000000000000) (.coef 135)) (.xor (.mul (.var 3) (.var 0)) (.sub (.mul (.lit 3 1) (.var 1)) (.mul (.mul (.mul (.lit 6 10) (.var 3)) (.var 0)) (.var 1)))),
  .mul (.mul (.lit 2025231468252455 1000000000000000) (.coef 91)) (.xor (.var 0) (.sub (.mul (.lit 3 1) (.var 1)) (.mul (.mul (.lit 6 10) (.var 0)) (.var 1)))),
  .mul (.mul (.lit 3080939385966558 1000000000000000) (.coef 119)) (.xor (.mul (.mul (.var 3) (.var 4)) (.var 0)) (.sub (.mul (.lit 2 1) (.var 1)) (.mul (.mul (.mul (.lit 3333333333333333 10000000000000000) (.var 3)) (.var 4)) (.var 1)))),
  .mul (.mul (.lit 1778781183844713 1000000000000000) (.coef 73)) (.xor (.mul (.var 4) (.var 0)) (.sub (.mul (.lit 2 1) (.var 1)) (.mul (.mul (.lit 3333333333333333 10000000000000000) (.var 4)) (.var 1)))),
  .mul (.mul (.lit 1778781183844713 1000000000000000) (.coef 64)) (.xor (.mul (.var 3) (.var 0)) (.sub (.mul (.lit 2 1) (.var 1)) (.mul (.mul (.lit 3333333333333333 10000000000000000) (.var 3)) (.var 1)))),
  .mul (.mul (.lit 1026979795322186 1000000000000000) (.coef 31)) (.xor (.var 0) (.sub (.mul (.lit 2 1) (.var 1)) (.mul (.lit 3333333333333333 10000000000000000) (.var 1)))),
  .mul (.mul (.lit 6075694404757366 1000000000000000) (.coef 184)) (.xor (.mul (.var 3) (.var 4)) (.sub (.mul (.mul (.lit 3 1) (.var 0)) (.var 1)) (.mul (.mul (.mul (.mul (.lit 6 10) (.var 3)) (.var 4)) (.var 0)) (.var 1)))),
  .mul (.mul (.lit 3507803800100568 1000000000000000) (.coef 156)) (.xor (.var 4) (.sub (.mul (.mul (.lit 3 1) (.var 0)) (.var 1)) (.mul (.mul (.mul (.lit 6 10) (.var 4)) (.var 0)) (.var 1)))),
  .mul (.mul (.lit 3080939385966558 1000000000000000) (.coef 129)) (.xor (.mul (.var 3) (.var 4)) (.sub (.mul (.mul (.lit 2 1) (.var 0)) (.var 1)) (.mul (.mul (.mul (.lit 3333333333333333 10000000000000000) (.var 3)) (.var 0)) (.var 1)))),
  .mul (.mul (.lit 1778781183844713 1000000000000000) (.coef 85)) (.xor (.var 4) (.sub (.mul (.mul (.lit 2 1) (.var 0)) (.var 1)) (.mul (.mul (.lit 3333333333333333 10000000000000000) (.var 0)) (.var 1)))),
  .mul (.mul (.lit 6075694404757366 1000000000000000) (.coef 180)) (.xor (.var 3) (.sub (.mul (.mul (.mul (.lit 3 1) (.var 4)) (.var 0)) (.var 1)) (.mul (.mul (.mul (.mul (.lit 6 10) (.var 3)) (.var 4)) (.var 0)) (.var 1)))),
  .mul (.mul (.lit 3080939385966558 1000000000000000) (.coef 125)) (.xor (.var 3) (.sub (.mul (.mul (.mul (.lit 2 1) (.var 4)) (.var 0)) (.var 1)) (.mul (.mul (.mul (.lit 3333333333333333 10000000000000000) (.var 4)) (.var 0)) (.var 1)))),
  .mul (.mul (.lit 3507803800100568 1000000000000000) (.coef 141)) (.xor (.var 3) (.sub (.mul (.mul (.lit 3 1) (.var 0)) (.var 1)) (.mul (.mul (.mul (.lit 6 10) (.var 3)) (.var 0)) (.var 1)))),
  .mul (.mul (.lit 1778781183844713 1000000000000000) (.coef 70)) (.xor (.var 3) (.sub (.mul (.mul (.lit 2 1) (.var 0)) (.var 1)) (.mul (.mul (.lit 3333333333333333 10000000000000000) (.var 0)) (.var 1)))),
  .mul (.mul (.lit 3507803800100568 1000000000000000) (.coef 160)) (.xor (.mul (.var 3) (.var 4)) (.sub (.mul (.lit 3 1) (.var 1)) (.mul (.mul (.mul (.lit 6 10) (.var 3)) (.var 4)) (.var 1)))),
  .mul (.mul (.lit 2025231468252455 1000000000000000) (.coef 108)) (.xor (.var 4) (.sub (.mul (.lit 3 1) (.var 1)) (.mul (.mul (.lit 6 10) (.var 4)) (.var 1)))),
  .mul (.mul (.lit 1778781183844713 1000000000000000) (.coef 89)) (.xor (.mul (.var 3) (.var 4)) (.sub (.mul (.lit 2 1) (.var 1)) (.mul (.mul (.lit 3333333333333333 10000000000000000) (.var 3)) (.var 1)))),
  .mul (.mul (.lit 1026979795322186 1000000000000000) (.coef 48)) (.xor (.var 4) (.sub (.mul (.lit 2 1) (.var 1)) (.mul (.lit 3333333333333333 10000000000000000) (.var 1)))),
  .mul (.mul (.lit 3507803800100568 1000000000000000) (.coef 154)) (.xor (.var 3) (.sub (.mul (.mul (.lit 3 1) (.var 4)) (.var 1)) (.mul (.mul (.mul (.lit 6 10) (.var 3)) (.var 4)) (.var 1)))),
  .mul (.mul (.lit 1778781183844713 1000000000000000) (.coef 83)) (.xor (.var 3) (.sub (.mul (.mul (.lit 2 1) (.var 4)) (.var 1)) (.mul (.mul (.lit 3333333333333333 10000000000000000) (.var 4)) (.var 1)))),
  .mul (.mul (.lit 2025231468252455 1000000000000000) (.coef 101)) (.xor (.var 3) (.sub (.mul (.lit 3 1) (.var 1)) (.mul (.mul (.lit 6 10) (.var 3)) (.var 1)))),
  .mul (.mul (.lit 1026979795322186 1000000000000000) (.coef 41)) (.xor (.var 3) (.sub (.mul (.lit 2 1) (.var 1)) (.mul (.lit 3333333333333333 10000000000000000) (.var 1)))),
  .mul (.mul (.mul (.mul (.mul (.lit 1590990257669731 1000000000000000) (.coef 58)) (.var 3)) (.var 4)) (.var 0)) (.var 1),
  .mul (.mul (.mul (.mul (.lit 9185586535436913 10000000000000000) (.coef 25)) (.var 4)) (.var 0)) (.var 1),
  .mul (.mul (.mul (.mul (.lit 9185586535436913 10000000000000000) (.coef 22)) (.var 3)) (.var 0)) (.var 1),
  .mul (.mul (.mul (.lit 5303300858899105 10000000000000000) (.coef 6)) (.var 0)) (.var 1),
  .mul (.mul (.mul (.mul (.lit 9185586535436913 10000000000000000) (.coef 29)) (.var 3)) (.var 4)) (.var 1),
  .mul (.mul (.mul (.lit 5303300858899105 10000000000000000) (.coef 13)) (.var 4)) (.var 1),
  .mul (.mul (.mul (.lit 5303300858899105 10000000000000000) (.coef 10)) (.var 3)) (.var 1),
  .mul (.mul (.lit 3061862178478971 10000000000000000) (.coef 2)) (.var 1),
  .mul (.mul (.lit 3507803800100568 1000000000000000) (.coef 150)) (.xor (.mul (.mul (.var 3) (.var 4)) (.var 0)) (.sub (.lit 3 1) (.mul (.mul (.mul (.lit 6 10) (.var 3)) (.var 4)) (.var 0)))),
  .mul (.mul (.lit 2025231468252455 1000000000000000) (.coef 103)) (.xor (.mul (.var 4) (.var 0)) (.sub (.lit 3 1) (.mul (.mul (.lit 6 10) (.var 4)) (.var 0)))),
  .mul (.mul (.lit 2025231468252455 1000000000000000) (.coef 97)) (.xor (.mul (.var 3) (.var 0)) (.sub (.lit 3 1) (.mul (.mul (.lit 6 10) (.var 3)) (.var 0)))),
  .mul (.mul (.lit 1169267933366856 1000000000000000) (.coef 51)) (.xor (.var 0) (.sub (.lit 3 1) (.mul (.lit 6 10) (.var 0)))),
  .mul (.mul (.lit 1778781183844713 1000000000000000) (.coef 79)) (.xor (.mul (.mul (.var 3) (.var 4)) (.var 0)) (.sub (.lit 2 1) (.mul (.mul (.lit 3333333333333333 10000000000000000) (.var 3)) (.var 4)))),
  .mul (.mul (.lit 1026979795322186 1000000000000000) (.coef 43)) (.xor (.mul (.var 4) (.var 0)) (.sub (.lit 2 1) (.mul (.lit 3333333333333333 10000000000000000) (.var 4)))),
  .mul (.mul (.lit 1026979795322186 1000000000000000) (.coef 37)) (.xor (.mul (.var 3) (.var 0)) (.sub (.lit 2 1) (.mul (.lit 3333333333333333 10000000000000000) (.var 3)))),
  .mul (.mul (.lit 592927061281571 1000000000000000) (.coef 16)) (.xor (.var 0) (.sub (.lit 2 1) (.lit 3333333333333333 10000000000000000))),
  .mul (.mul (.lit 3507803800100568 1000000000000000) (.coef 159)) (.xor (.mul (.var 3) (.var 4)) (.sub (.mul (.lit 3 1) (.var 0)) (.mul (.mul (.mul (.lit 6 10) (.var 3)) (.var 4)) (.var 0)))),
  .mul (.mul (.lit 2025231468252455 1000000000000000) (.coef 107)) (.xor (.var 4) (.sub (.mul (.lit 3 1) (.var 0)) (.mul (.mul (.lit 6 10) (.var 4)) (.var 0)))),
  .mul (.mul (.lit 1778781183844713 1000000000000000) (.coef 88)) (.xor (.mul (.var 3) (.var 4)) (.sub (.mul (.lit 2 1) (.var 0)) (.mul (.mul (.lit 3333333333333333 10000000000000000) (.var 3)) (.var 0)))),
  .mul (.mul (.lit 1026979795322186 1000000000000000) (.coef 47)) (.xor (.var 4) (.sub (.mul (.lit 2 1) (.var 0)) (.mul (.lit 3333333333333333 10000000000000000) (.var 0)))),
  .mul (.mul (.lit 3507803800100568 1000000000000000) (.coef 153)) (.xor (.var 3) (.sub (.mul (.mul (.lit 3 1) (.var 4)) (.var 0)) (.mul (.mul (.mul (.lit 6 10) (.var 3)) (.var 4)) (.var 0)))),
  .mul (.mul (.lit 1778781183844713 1000000000000000) (.coef 82)) (.xor (.var 3) (.sub (.mul (.mul (.lit 2 1) (.var 4)) (.var 0)) (.mul (.mul (.lit 3333333333333333 10000000000000000) (.var 4)) (.var 0)))),
  .mul (.mul (.lit 2025231468252455 1000000000000000) (.coef 100)) (.xor (.var 3) (.sub (.mul (.lit 3 1) (.var 0)) (.mul (.mul (.lit 6 10) (.var 3)) (.var 0)))),
  .mul (.mul (.lit 1026979795322186 1000000000000000) (.coef 40)) (.xor (.var 3) (.sub (.mul (.lit 2 1) (.var 0)) (.mul (.lit 3333333333333333 10000000000000000) (.var 0)))),
  .mul (.mul (.mul (.mul (.lit 9185586535436913 10000000000000000) (.coef 28)) (.var 3)) (.var 4)) (.var 0),
  .mul (.mul (.mul (.lit 5303300858899105 10000000000000000) (.coef 12)) (.var 4)) (.var 0),
  .mul (.mul (.mul (.lit 5303300858899105 10000000000000000) (.coef 9)) (.var 3)) (.var 0),
  .mul (.mul (.lit 3061862178478971 10000000000000000) (.coef 1)) (.var 0),
  .mul (.mul (.lit 2025231468252455 1000000000000000) (.coef 110)) (.xor (.mul (.var 3) (.var 4)) (.sub (.lit 3 1) (.mul (.mul (.lit 6 10) (.var 3)) (.var 4)))),
  .mul (.mul (.lit 1169267933366856 1000000000000000) (.coef 55)) (.xor (.var 4) (.sub (.lit 3 1) (.mul (.lit 6 10) (.var 4)))),
  .mul (.mul (.lit 1026979795322186 1000000000000000) (.coef 50)) (.xor (.mul (.var 3) (.var 4)) (.sub (.lit 2 1) (.mul (.lit 3333333333333333 10000000000000000) (.var 3)))),
  .mul (.mul (.lit 592927061281571 1000000000000000) (.coef 20)) (.xor (.var 4) (.sub (.lit 2 1) (.lit 3333333333333333 10000000000000000))),
  .mul (.mul (.lit 2025231468252455 1000000000000000) (.coef 106)) (.xor (.var 3) (.sub (.mul (.lit 3 1) (.var 4)) (.mul (.mul (.lit 6 10) (.var 3)) (.var 4)))),
  .mul (.mul (.lit 1026979795322186 1000000000000000) (.coef 46)) (.xor (.var 3) (.sub (.mul (.lit 2 1) (.var 4)) (.mul (.lit 3333333333333333 10000000000000000) (.var 4)))),
  .mul (.mul (.mul (.lit 5303300858899105 10000000000000000) (.coef 15)) (.var 3)) (.var 4),
  .mul (.mul (.lit 3061862178478971 10000000000000000) (.coef 5)) (.var 4),
  .mul (.mul (.lit 1169267933366856 1000000000000000) (.coef 54)) (.xor (.var 3) (.sub (.lit 3 1) (.mul (.lit 6 10) (.var 3)))),
  .mul (.mul (.lit 592927061281571 1000000000000000) (.coef 19)) (.xor (.var 3) (.sub (.lit 2 1) (.lit 3333333333333333 10000000000000000))),
  .mul (.mul (.lit 3061862178478971 10000000000000000) (.coef 4)) (.var 3),
  .mul (.lit 1767766952966368 10000000000000000) (.coef 0)]

/-- expand5d.py:483-1407, arguments f, x, y, z, vx, vy. -/
def expand5d4p : Option (List Expr) := some [
  .mul (.mul (.mul (.mul (.lit 2088174713191522 100000000000000) (.coef 349)) (.pos (.lit 1205608232776094 100000000000000))) (.coef 333)) (.xor (.mul (.mul (.mul (.var 4) (.var 0)) (.var 1)) (.var 2)) (.sub (.sub (.lit 4 1) (.mul (.lit 8571428571428571 10000000000000000) (.xor (.mul (.mul (.mul (.var 4) (.var 0)) (.var 1)) (.var 2)) (.sub (.lit 2 1) (.mul (.mul (.mul (.lit 3333333333333333 10000000000000000) (.var 4)) (.var 0)) (.var 1)))))) (.mul (.mul (.mul (.lit 2 10) (.var 4)) (.var 0)) (.var 1)))),
  .mul (.mul (.lit 1205608232776094 100000000000000) (.coef 329)) (.xor (.mul (.mul (.mul (.var 3) (.var 0)) (.var 1)) (.var 2)) (.sub (.sub (.lit 4 1) (.mul (.lit 8571428571428571 10000000000000000) (.xor (.mul (.mul (.mul (.var 3) (.var 0)) (.var 1)) (.var 2)) (.sub (.lit 2 1) (.mul (.mul (.mul (.lit 3333333333333333 10000000000000000) (.var 3)) (.var 0)) (.var 1)))))) (.mul (.mul (.mul (.lit 2 10) (.var 3)) (.var 0)) (.var 1)))),
  .mul (.mul (.lit 6960582377305072 1000000000000000) (.coef 284)) (.xor (.mul (.mul (.var 0) (.var 1)) (.var 2)) (.sub (.sub (.lit 4 1) (.mul (.lit 8571428571428571 10000000000000000) (.xor (.mul (.mul (.var 0) (.var 1)) (.var 2)) (.sub (.lit 2 1) (.mul (.mul (.lit 3333333333333333 10000000000000000) (.var 0)) (.var 1)))))) (.mul (.mul (.lit 2 10) (.var 0)) (.var 1)))),
  .mul (.mul (.lit 1205608232776094 100000000000000) (.coef 339)) (.xor (.mul (.mul (.mul (.var 3) (.var 4)) (.var 1)) (.var 2)) (.sub (.sub (.lit 4 1) (.mul (.lit 8571428571428571 10000000000000000) (.xor (.mul (.mul (.mul (.var 3) (.var 4)) (.var 1)) (.var 2)) (.sub (.lit 2 1) (.mul (.mul (.mul (.lit 3333333333333333 10000000000000000) (.var 3)) (.var 4)) (.var 1)))))) (.mul (.mul (.mul (.lit 2 10) (.var 3)) (.var 4)) (.var 1)))),
  .mul (.mul (.lit 6960582377305072 1000000000000000) (.coef 299)) (.xor (.mul (.mul (.var 4) (.var 1)) (.var 2)) (.sub (.sub (.lit 4 1) (.mul (.lit 8571428571428571 10000000000000000) (.xor (.mul (.mul (.var 4) (.var 1)) (.var 2)) (.sub (.lit 2 1) (.mul (.mul (.lit 3333333333333333 10000000000000000) (.var 4)) (.var 1)))))) (.mul (.mul (.lit 2 10) (.var 4)) (.var 1)))),
  .mul (.mul (.lit 6960582377305072 1000000000000000) (.coef 290)) (.xor (.mul (.mul (.var 3) (.var 1)) (.var 2)) (.sub (.sub (.lit 4 1) (.mul (.lit 8571428571428571 10000000000000000) (.xor (.mul (.mul (.var 3) (.var 1)) (.var 2)) (.sub (.lit 2 1) (.mul (.mul (.lit 3333333333333333 10000000000000000) (.var 3)) (.var 1)))))) (.mul (.mul (.lit 2 10) (.var 3)) (.var 1)))),
  .mul (.mul (.lit 4018694109253648 1000000000000000) (.coef 212)) (.xor (.mul (.var 1) (.var 2)) (.sub (.sub (.lit 4 1) (.mul (.lit 8571428571428571 10000000000000000) (.xor (.mul (.var 1) (.var 2)) (.sub (.lit 2 1) (.mul (.lit 3333333333333333 10000000000000000) (.var 1)))))) (.mul (.lit 2 10) (.var 1)))),
  .mul (.mul (.lit 1205608232776094 100000000000000) (.coef 338)) (.xor (.mul (.mul (.mul (.var 3) (.var 4)) (.var 0)) (.var 2)) (.sub (.sub (.lit 4 1) (.mul (.lit 8571428571428571 10000000000000000) (.xor (.mul (.mul (.mul (.var 3) (.var 4)) (.var 0)) (.var 2)) (.sub (.lit 2 1) (.mul (.mul (.mul (.lit 3333333333333333 10000000000000000) (.var 3)) (.var 4)) (.var 0)))))) (.mul (.mul (.mul (.lit 2 10) (.var 3)) (.var 4)) (.var 0)))),
  .mul (.mul (.lit 6960582377305072 1000000000000000) (.coef 298)) (.xor (.mul (.mul (.var 4) (.var 0)) (.var 2)) (.sub (.sub (.lit 4 1) (.mul (.lit 8571428571428571 10000000000000000) (.xor (.mul (.mul (.var 4) (.var 0)) (.var 2)) (.sub (.lit 2 1) (.mul (.mul (.lit 3333333333333333 10000000000000000) (.var 4)) (.var 0)))))) (.mul (.mul (.lit 2 10) (.var 4)) (.var 0)))),
  .mul (.mul (.lit 6960582377305072 1000000000000000) (.coef 289)) (.xor (.mul (.mul (.var 3) (.var 0)) (.var 2)) (.sub (.sub (.lit 4 1) (.mul (.lit 8571428571428571 10000000000000000) (.xor (.mul (.mul (.var 3) (.var 0)) (.var 2)) (.sub (.lit 2 1) (.mul (.mul (.lit 3333333333333333 10000000000000000) (.var 3)) (.var 0)))))) (.mul (.mul (.lit 2 10) (.var 3)) (.var 0)))),
  .mul (.mul (.lit 4018694109253648 1000000000000000) (.coef 211)) (.xor (.mul (.var 0) (.var 2)) (.sub (.sub (.lit 4 1) (.mul (.lit 8571428571428571 10000000000000000) (.xor (.mul (.var 0) (.var 2)) (.sub (.lit 2 1) (.mul (.lit 3333333333333333 10000000000000000) (.var 0)))))) (.mul (.lit 2 10) (.var 0)))),
  .mul (.mul (.lit 6960582377305072 1000000000000000) (.coef 302)) (.xor (.mul (.mul (.var 3) (.var 4)) (.var 2)) (.sub (.sub (.lit 4 1) (.mul (.lit 8571428571428571 10000000000000000) (.xor (.mul (.mul (.var 3) (.var 4)) (.var 2)) (.sub (.lit 2 1) (.mul (.mul (.lit 3333333333333333 10000000000000000) (.var 3)) (.var 4)))))) (.mul (.mul (.lit 2 10) (.var 3)) (.var 4)))),
  .mul (.mul (.lit 4018694109253648 1000000000000000) (.coef 221)) (.xor (.mul (.var 4) (.var 2)) (.sub (.sub (.lit 4 1) (.mul (.lit 8571428571428571 10000000000000000) (.xor (.mul (.var 4) (.var 2)) (.sub (.lit 2 1) (.mul (.lit 3333333333333333 10000000000000000) (.var 4)))))) (.mul (.lit 2 10) (.var 4)))),
  .mul (.mul (.lit 4018694109253648 1000000000000000) (.coef 215)) (.xor (.mul (.var 3) (.var 2)) (.sub (.sub (.lit 4 1) (.mul (.lit 8571428571428571 10000000000000000) (.xor (.mul (.var 3) (.var 2)) (.sub (.lit 2 1) (.mul (.lit 3333333333333333 10000000000000000) (.var 3)))))) (.mul (.lit 2 10) (.var 3)))),
  .mul (.mul (.lit 2320194125768357 1000000000000000) (.coef 123)) (.xor (.var 2) (.sub (.sub (.lit 4 1) (.mul (.lit 8571428571428571 10000000000000000) (.xor (.var 2) (.sub (.lit 2 1) (.lit 3333333333333333 10000000000000000))))) (.lit 2 10))),
  .mul (.mul (.lit 1052341140030171 100000000000000) (.coef 324)) (.xor (.mul (.mul (.mul (.mul (.var 3) (.var 4)) (.var 0)) (.var 1)) (.var 2)) (.sub (.lit 3 1) (.mul (.mul (.mul (.mul (.mul (.lit 6 10) (.var 3)) (.var 4)) (.var 0)) (.var 1)) (.var 2)))),
  .mul (.mul (.lit 6075694404757366 1000000000000000) (.coef 268)) (.xor (.mul (.mul (.mul (.var 4) (.var 0)) (.var 1)) (.var 2)) (.sub (.lit 3 1) (.mul (.mul (.mul (.mul (.lit 6 10) (.var 4)) (.var 0)) (.var 1)) (.var 2)))),
  .mul (.mul (.lit 6075694404757366 1000000000000000) (.coef 264)) (.xor (.mul (.mul (.mul (.var 3) (.var 0)) (.var 1)) (.var 2)) (.sub (.lit 3 1) (.mul (.mul (.mul (.mul (.lit 6 10) (.var 3)) (.var 0)) (.var 1)) (.var 2)))),
  .mul (.mul (.lit 3507803800100568 1000000000000000) (.coef 179)) (.xor (.mul (.mul (.var 0) (.var 1)) (.var 2)) (.sub (.lit 3 1) (.mul (.mul (.mul (.lit 6 10) (.var 0)) (.var 1)) (.var 2)))),
  .mul (.mul (.lit 6075694404757366 1000000000000000) (.coef 274)) (.xor (.mul (.mul (.mul (.var 3) (.var 4)) (.var 1)) (.var 2)) (.sub (.lit 3 1) (.mul (.mul (.mul (.mul (.lit 6 10) (.var 3)) (.var 4)) (.var 1)) (.var 2)))),
  .mul (.mul (.lit 3507803800100568 1000000000000000) (.coef 194)) (.xor (.mul (.mul (.var 4) (.var 1)) (.var 2)) (.sub (.lit 3 1) (.mul (.mul (.mul (.lit 6 10) (.var 4)) (.var 1)) (.var 2)))),
  .mul (.mul (.lit 3507803800100568 1000000000000000) (.coef 185)) (.xor (.mul (.mul (.var 3) (.var 1)) (.var 2)) (.sub (.lit 3 1) (.mul (.mul (.mul (.lit 6 10) (.var 3)) (.var 1)) (.var 2)))),
  .mul (.mul (.lit 2025231468252455 1000000000000000) (.coef 106)) (.xor (.mul (.var 1) (.var 2)) (.sub (.lit 3 1) (.mul (.mul (.lit 6 10) (.var 1)) (.var 2)))),
  .mul (.mul (.lit 6075694404757366 1000000000000000) (.coef 273)) (.xor (.mul (.mul (.mul (.var 3) (.var 4)) (.var 0)) (.var 2)) (.sub (.lit 3 1) (.mul (.mul (.mul (.mul (.lit 6 10) (.var 3)) (.var 4)) (.var 0)) (.var 2)))),
  .mul (.mul (.lit 3507803800100568 1000000000000000) (.coef 193)) (.xor (.mul (.mul (.var 4) (.var 0)) (.var 2)) (.sub (.lit 3 1) (.mul (.mul (.mul (.lit 6 10) (.var 4)) (.var 0)) (.var 2)))),
  .mul (.mul (.lit 3507803800100568 1000000000000000) (.coef 184)) (.xor (.mul (.mul (.var 3) (.var 0)) (.var 2)) (.sub (.lit 3 1) (.mul (.mul (.mul (.lit 6 10) (.var 3)) (.var 0)) (.var 2)))),
  .mul (.mul (.lit 2025231468252455 1000000000000000) (.coef 105)) (.xor (.mul (.var 0) (.var 2)) (.sub (.lit 3 1) (.mul (.mul (.lit 6 10) (.var 0)) (.var 2)))),
  .mul (.mul (.lit 3507803800100568 1000000000000000) (.coef 197)) (.xor (.mul (.mul (.var 3) (.var 4)) (.var 2)) (.sub (.lit 3 1) (.mul (.mul (.mul (.lit 6 10) (.var 3)) (.var 4)) (.var 2)))),
  .mul (.mul (.lit 2025231468252455 1000000000000000) (.coef 115)) (.xor (.mul (.var 4) (.var 2)) (.sub (.lit 3 1) (.mul (.mul (.lit 6 10) (.var 4)) (.var 2)))),
  .mul (.mul (.lit 2025231468252455 1000000000000000) (.coef 109)) (.xor (.mul (.var 3) (.var 2)) (.sub (.lit 3 1) (.mul (.mul (.lit 6 10) (.var 3)) (.var 2)))),
  .mul (.mul (.lit 1169267933366856 1000000000000000) (.coef 53)) (.xor (.var 2) (.sub (.lit 3 1) (.mul (.lit 6 10) (.var 2)))),
  .mul (.mul (.mul (.mul (.mul (.mul (.mul (.mul (.mul (.mul (.mul (.mul (.mul (.mul (.mul (.mul (.mul (.mul (.mul (.mul (.mul (.mul (.mul (.mul (.mul (.mul (.mul (.mul (.mul (.mul (.mul (.mul (.mul (.mul (.mul (.mul (.mul (.mul (.mul (.mul (.mul (.mul (.mul (.mul (.mul (.mul (.mul (.mul (.mul (.mul (.mul (.mul (.mul (.mul (.mul (.mul (.mul (.mul (.mul (.mul (.lit 1033378485236652 100000000000000) (.coef 317)) (.pos (.lit 1033378485236652 100000000000000))) (.coef 320)) (.pos (.lit 5966213466261491 1000000000000000))) (.coef 252)) (.pos (.lit 5966213466261491 1000000000000000))) (.coef 237)) (.pos (.lit 1033378485236652 100000000000000))) (.coef 313)) (.pos (.lit 5966213466261491 1000000000000000))) (.coef 239)) (.pos (.lit 5966213466261491 1000000000000000))) (.coef 249)) (.pos (.lit 5966213466261491 1000000000000000))) (.coef 233)) (.pos (.lit 5966213466261491 1000000000000000))) (.coef 258)) (.pos (.lit 3444594950788841 1000000000000000))) (.coef 148)) (.pos (.lit 3444594950788841 1000000000000000))) (.coef 170)) (.pos (.lit 3444594950788841 1000000000000000))) (.coef 158)) (.pos (.lit 1033378485236652 100000000000000))) (.coef 314)) (.pos (.lit 5966213466261491 1000000000000000))) (.coef 240)) (.pos (.lit 5966213466261491 1000000000000000))) (.coef 248)) (.pos (.lit 5966213466261491 1000000000000000))) (.coef 234)) (.pos (.lit 5966213466261491 1000000000000000))) (.coef 257)) (.pos (.lit 3444594950788841 1000000000000000))) (.coef 149)) (.pos (.lit 3444594950788841 1000000000000000))) (.coef 169)) (.pos (.lit 3444594950788841 1000000000000000))) (.coef 157)) (.pos (.lit 5966213466261491 1000000000000000))) (.coef 243)) (.pos (.lit 5966213466261491 1000000000000000))) (.coef 242)) (.pos (.lit 3444594950788841 1000000000000000))) (.coef 161)) (.pos (.lit 3444594950788841 1000000000000000))) (.coef 160)) (.pos (.lit 3444594950788841 1000000000000000))) (.coef 164)) (.pos (.lit 3444594950788841 1000000000000000))) (.coef 152)) (.pos (.lit 3444594950788841 1000000000000000))) (.coef 151)) (.pos (.lit 3444594950788841 1000000000000000))) (.coef 173)) (.pos (.lit 1988737822087164 1000000000000000))) (.coef 93)) (.pos (.lit 5336343551534138 1000000000000000))) (.coef 229)) (.xor (.mul (.mul (.mul (.mul (.var 3) (.var 4)) (.var 0)) (.var 1)) (.var 2)) (.sub (.lit 2 1) (.mul (.mul (.mul (.mul (.lit 3333333333333333 10000000000000000) (.var 3)) (.var 4)) (.var 0)) (.var 1)))),
  .mul (.mul (.lit 3080939385966558 1000000000000000) (.coef 133)) (.xor (.mul (.mul (.mul (.var 4) (.var 0)) (.var 1)) (.var 2)) (.sub (.lit 2 1) (.mul (.mul (.mul (.lit 3333333333333333 10000000000000000) (.var 4)) (.var 0)) (.var 1)))),
  .mul (.mul (.lit 3080939385966558 1000000000000000) (.coef 129)) (.xor (.mul (.mul (.mul (.var 3) (.var 0)) (.var 1)) (.var 2)) (.sub (.lit 2 1) (.mul (.mul (.mul (.lit 3333333333333333 10000000000000000) (.var 3)) (.var 0)) (.var 1)))),
  .mul (.mul (.lit 1778781183844713 1000000000000000) (.coef 63)) (.xor (.mul (.mul (.var 0) (.var 1)) (.var 2)) (.sub (.lit 2 1) (.mul (.mul (.lit 3333333333333333 10000000000000000) (.var 0)) (.var 1)))),
  .mul (.mul (.lit 3080939385966558 1000000000000000) (.coef 139)) (.xor (.mul (.mul (.mul (.var 3) (.var 4)) (.var 1)) (.var 2)) (.sub (.lit 2 1) (.mul (.mul (.mul (.lit 3333333333333333 10000000000000000) (.var 3)) (.var 4)) (.var 1)))),
  .mul (.mul (.lit 1778781183844713 1000000000000000) (.coef 78)) (.xor (.mul (.mul (.var 4) (.var 1)) (.var 2)) (.sub (.lit 2 1) (.mul (.mul (.lit 3333333333333333 10000000000000000) (.var 4)) (.var 1)))),
  .mul (.mul (.lit 1778781183844713 1000000000000000) (.coef 69)) (.xor (.mul (.mul (.var 3) (.var 1)) (.var 2)) (.sub (.lit 2 1) (.mul (.mul (.lit 3333333333333333 10000000000000000) (.var 3)) (.var 1)))),
  .mul (.mul (.lit 1026979795322186 1000000000000000) (.coef 36)) (.xor (.mul (.var 1) (.var 2)) (.sub (.lit 2 1) (.mul (.lit 3333333333333333 10000000000000000) (.var 1)))),
  .mul (.mul (.mul (.mul (.lit 1988737822087164 1000000000000000) (.coef 92)) (.pos (.lit 3080939385966558 1000000000000000))) (.coef 138)) (.xor (.mul (.mul (.mul (.var 3) (.var 4)) (.var 0)) (.var 2)) (.sub (.lit 2 1) (.mul (.mul (.mul (.lit 3333333333333333 10000000000000000) (.var 3)) (.var 4)) (.var 0)))),
  .mul (.mul (.lit 1778781183844713 1000000000000000) (.coef 77)) (.xor (.mul (.mul (.var 4) (.var 0)) (.var 2)) (.sub (.lit 2 1) (.mul (.mul (.lit 3333333333333333 10000000000000000) (.var 4)) (.var 0)))),
  .mul (.mul (.lit 1778781183844713 1000000000000000) (.coef 68)) (.xor (.mul (.mul (.var 3) (.var 0)) (.var 2)) (.sub (.lit 2 1) (.mul (.mul (.lit 3333333333333333 10000000000000000) (.var 3)) (.var 0)))),
  .mul (.mul (.lit 1026979795322186 1000000000000000) (.coef 35)) (.xor (.mul (.var 0) (.var 2)) (.sub (.lit 2 1) (.mul (.lit 3333333333333333 10000000000000000) (.var 0)))),
  .mul (.mul (.mul (.mul (.lit 1988737822087164 1000000000000000) (.coef 99)) (.pos (.lit 1778781183844713 1000000000000000))) (.coef 81)) (.xor (.mul (.mul (.var 3) (.var 4)) (.var 2)) (.sub (.lit 2 1) (.mul (.mul (.lit 3333333333333333 10000000000000000) (.var 3)) (.var 4)))),
  .mul (.mul (.lit 1026979795322186 1000000000000000) (.coef 45)) (.xor (.mul (.var 4) (.var 2)) (.sub (.lit 2 1) (.mul (.lit 3333333333333333 10000000000000000) (.var 4)))),
  .mul (.mul (.mul (.mul (.lit 1988737822087164 1000000000000000) (.coef 96)) (.pos (.lit 1026979795322186 1000000000000000))) (.coef 39)) (.xor (.mul (.var 3) (.var 2)) (.sub (.lit 2 1) (.mul (.lit 3333333333333333 10000000000000000) (.var 3)))),
  .mul (.mul (.lit 592927061281571 1000000000000000) (.coef 18)) (.xor (.var 2) (.sub (.lit 2 1) (.lit 3333333333333333 10000000000000000))),
  .mul (.mul (.mul (.mul (.mul (.mul (.lit 2088174713191522 100000000000000) (.coef 348)) (.pos (.lit 1033378485236652 100000000000000))) (.coef 316)) (.pos (.lit 1205608232776094 100000000000000))) (.coef 332)) (.xor (.add (.mul (.neg (.lit 8571428571428571 10000000000000000)) (.xor (.mul (.mul (.var 4) (.var 0)) (.var 1)) (.sub (.mul (.lit 2 1) (.var 2)) (.mul (.mul (.mul (.lit 3333333333333333 10000000000000000) (.var 4)) (.var 0)) (.var 2))))) (.mul (.mul (.var 4) (.var 0)) (.var 1))) (.sub (.mul (.lit 4 1) (.var 2)) (.mul (.mul (.mul (.lit 2 10) (.var 4)) (.var 0)) (.var 2)))),
  .mul (.mul (.mul (.mul (.lit 1033378485236652 100000000000000) (.coef 319)) (.pos (.lit 1205608232776094 100000000000000))) (.coef 328)) (.xor (.add (.mul (.neg (.lit 8571428571428571 10000000000000000)) (.xor (.mul (.mul (.var 3) (.var 0)) (.var 1)) (.sub (.mul (.lit 2 1) (.var 2)) (.mul (.mul (.mul (.lit 3333333333333333 10000000000000000) (.var 3)) (.var 0)) (.var 2))))) (.mul (.mul (.var 3) (.var 0)) (.var 1))) (.sub (.mul (.lit 4 1) (.var 2)) (.mul (.mul (.mul (.lit 2 10) (.var 3)) (.var 0)) (.var 2)))),
  .mul (.mul (.mul (.mul (.mul (.mul (.lit 5966213466261491 1000000000000000) (.coef 251)) (.pos (.lit 5966213466261491 1000000000000000))) (.coef 236)) (.pos (.lit 6960582377305072 1000000000000000))) (.coef 283)) (.xor (.add (.mul (.neg (.lit 8571428571428571 10000000000000000)) (.xor (.mul (.var 0) (.var 1)) (.sub (.mul (.lit 2 1) (.var 2)) (.mul (.mul (.lit 3333333333333333 10000000000000000) (.var 0)) (.var 2))))) (.mul (.var 0) (.var 1))) (.sub (.mul (.lit 4 1) (.var 2)) (.mul (.mul (.lit 2 10) (.var 0)) (.var 2)))),
  .mul (.mul (.mul (.mul (.lit 1033378485236652 100000000000000) (.coef 312)) (.pos (.lit 1205608232776094 100000000000000))) (.coef 337)) (.xor (.add (.mul (.neg (.lit 8571428571428571 10000000000000000)) (.xor (.mul (.mul (.var 3) (.var 4)) (.var 1)) (.sub (.mul (.lit 2 1) (.var 2)) (.mul (.mul (.mul (.lit 3333333333333333 10000000000000000) (.var 3)) (.var 4)) (.var 2))))) (.mul (.mul (.var 3) (.var 4)) (.var 1))) (.sub (.mul (.lit 4 1) (.var 2)) (.mul (.mul (.mul (.lit 2 10) (.var 3)) (.var 4)) (.var 2)))),
  .mul (.mul (.mul (.mul (.mul (.mul (.lit 5966213466261491 1000000000000000) (.coef 238)) (.pos (.lit 5966213466261491 1000000000000000))) (.coef 247)) (.pos (.lit 6960582377305072 1000000000000000))) (.coef 297)) (.xor (.add (.mul (.neg (.lit 8571428571428571 10000000000000000)) (.xor (.mul (.var 4) (.var 1)) (.sub (.mul (.lit 2 1) (.var 2)) (.mul (.mul (.lit 3333333333333333 10000000000000000) (.var 4)) (.var 2))))) (.mul (.var 4) (.var 1))) (.sub (.mul (.lit 4 1) (.var 2)) (.mul (.mul (.lit 2 10) (.var 4)) (.var 2)))),
  .mul (.mul (.mul (.mul (.mul (.mul (.lit 5966213466261491 1000000000000000) (.coef 232)) (.pos (.lit 5966213466261491 1000000000000000))) (.coef 256)) (.pos (.lit 6960582377305072 1000000000000000))) (.coef 288)) (.xor (.add (.mul (.neg (.lit 8571428571428571 10000000000000000)) (.xor (.mul (.var 3) (.var 1)) (.sub (.mul (.lit 2 1) (.var 2)) (.mul (.mul (.lit 3333333333333333 10000000000000000) (.var 3)) (.var 2))))) (.mul (.var 3) (.var 1))) (.sub (.mul (.lit 4 1) (.var 2)) (.mul (.mul (.lit 2 10) (.var 3)) (.var 2)))),
  .mul (.mul (.mul (.mul (.mul (.mul (.mul (.mul (.lit 3444594950788841 1000000000000000) (.coef 147)) (.pos (.lit 3444594950788841 1000000000000000))) (.coef 168)) (.pos (.lit 3444594950788841 1000000000000000))) (.coef 156)) (.pos (.lit 4018694109253648 1000000000000000))) (.coef 210)) (.xor (.add (.mul (.neg (.lit 8571428571428571 10000000000000000)) (.xor (.var 1) (.sub (.mul (.lit 2 1) (.var 2)) (.mul (.lit 3333333333333333 10000000000000000) (.var 2))))) (.var 1)) (.sub (.mul (.lit 4 1) (.var 2)) (.mul (.lit 2 10) (.var 2)))),
  .mul (.mul (.mul (.mul (.mul (.mul (.lit 2088174713191522 100000000000000) (.coef 347)) (.pos (.lit 1033378485236652 100000000000000))) (.coef 315)) (.pos (.lit 1205608232776094 100000000000000))) (.coef 331)) (.xor (.add (.mul (.neg (.lit 8571428571428571 10000000000000000)) (.xor (.mul (.var 4) (.var 0)) (.sub (.mul (.mul (.lit 2 1) (.var 1)) (.var 2)) (.mul (.mul (.mul (.lit 3333333333333333 10000000000000000) (.var 4)) (.var 1)) (.var 2))))) (.mul (.var 4) (.var 0))) (.sub (.mul (.mul (.lit 4 1) (.var 1)) (.var 2)) (.mul (.mul (.mul (.lit 2 10) (.var 4)) (.var 1)) (.var 2)))),
  .mul (.mul (.mul (.mul (.lit 1033378485236652 100000000000000) (.coef 318)) (.pos (.lit 1205608232776094 100000000000000))) (.coef 327)) (.xor (.add (.mul (.neg (.lit 8571428571428571 10000000000000000)) (.xor (.mul (.var 3) (.var 0)) (.sub (.mul (.mul (.lit 2 1) (.var 1)) (.var 2)) (.mul (.mul (.mul (.lit 3333333333333333 10000000000000000) (.var 3)) (.var 1)) (.var 2))))) (.mul (.var 3) (.var 0))) (.sub (.mul (.mul (.lit 4 1) (.var 1)) (.var 2)) (.mul (.mul (.mul (.lit 2 10) (.var 3)) (.var 1)) (.var 2)))),
  .mul (.mul (.mul (.mul (.mul (.mul (.lit 5966213466261491 1000000000000000) (.coef 250)) (.pos (.lit 5966213466261491 1000000000000000))) (.coef 235)) (.pos (.lit 6960582377305072 1000000000000000))) (.coef 282)) (.xor (.add (.mul (.neg (.lit 8571428571428571 10000000000000000)) (.xor (.var 0) (.sub (.mul (.mul (.lit 2 1) (.var 1)) (.var 2)) (.mul (.mul (.lit 3333333333333333 10000000000000000) (.var 1)) (.var 2))))) (.var 0)) (.sub (.mul (.mul (.lit 4 1) (.var 1)) (.var 2)) (.mul (.mul (.lit 2 10) (.var 1)) (.var 2)))),
  .mul (.mul (.mul (.mul (.mul (.mul (.lit 2088174713191522 100000000000000) (.coef 351)) (.pos (.lit 1033378485236652 100000000000000))) (.coef 321)) (.pos (.lit 1205608232776094 100000000000000))) (.coef 343)) (.xor (.add (.mul (.neg (.lit 8571428571428571 10000000000000000)) (.xor (.var 4) (.sub (.mul (.mul (.mul (.lit 2 1) (.var 0)) (.var 1)) (.var 2)) (.mul (.mul (.mul (.lit 3333333333333333 10000000000000000) (.var 0)) (.var 1)) (.var 2))))) (.var 4)) (.sub (.mul (.mul (.mul (.lit 4 1) (.var 0)) (.var 1)) (.var 2)) (.mul (.mul (.mul (.lit 2 10) (.var 0)) (.var 1)) (.var 2)))),
  .mul (.mul (.mul (.mul (.lit 2088174713191522 100000000000000) (.coef 350)) (.pos (.lit 1205608232776094 100000000000000))) (.coef 330)) (.xor (.add (.mul (.neg (.lit 8571428571428571 10000000000000000)) (.xor (.var 3) (.sub (.mul (.mul (.mul (.lit 2 1) (.var 0)) (.var 1)) (.var 2)) (.mul (.mul (.mul (.lit 3333333333333333 10000000000000000) (.var 0)) (.var 1)) (.var 2))))) (.var 3)) (.sub (.mul (.mul (.mul (.lit 4 1) (.var 0)) (.var 1)) (.var 2)) (.mul (.mul (.mul (.lit 2 10) (.var 0)) (.var 1)) (.var 2)))),
  .mul (.mul (.lit 1205608232776094 100000000000000) (.coef 346)) (.xor (.add (.mul (.neg (.lit 8571428571428571 10000000000000000)) (.xor (.mul (.var 3) (.var 4)) (.sub (.mul (.mul (.lit 2 1) (.var 1)) (.var 2)) (.mul (.mul (.mul (.lit 3333333333333333 10000000000000000) (.var 3)) (.var 1)) (.var 2))))) (.mul (.var 3) (.var 4))) (.sub (.mul (.mul (.lit 4 1) (.var 1)) (.var 2)) (.mul (.mul (.mul (.lit 2 10) (.var 3)) (.var 1)) (.var 2)))),
  .mul (.mul (.mul (.mul (.lit 5966213466261491 1000000000000000) (.coef 261)) (.pos (.lit 6960582377305072 1000000000000000))) (.coef 308)) (.xor (.add (.mul (.neg (.lit 8571428571428571 10000000000000000)) (.xor (.var 4) (.sub (.mul (.mul (.lit 2 1) (.var 1)) (.var 2)) (.mul (.mul (.lit 3333333333333333 10000000000000000) (.var 1)) (.var 2))))) (.var 4)) (.sub (.mul (.mul (.lit 4 1) (.var 1)) (.var 2)) (.mul (.mul (.lit 2 10) (.var 1)) (.var 2)))),
  .mul (.mul (.lit 1205608232776094 100000000000000) (.coef 342)) (.xor (.add (.mul (.neg (.lit 8571428571428571 10000000000000000)) (.xor (.var 3) (.sub (.mul (.mul (.mul (.lit 2 1) (.var 4)) (.var 1)) (.var 2)) (.mul (.mul (.mul (.lit 3333333333333333 10000000000000000) (.var 4)) (.var 1)) (.var 2))))) (.var 3)) (.sub (.mul (.mul (.mul (.lit 4 1) (.var 4)) (.var 1)) (.var 2)) (.mul (.mul (.mul (.lit 2 10) (.var 4)) (.var 1)) (.var 2)))),
  .mul (.mul (.lit 6960582377305072 1000000000000000) (.coef 293)) (.xor (.add (.mul (.neg (.lit 8571428571428571 10000000000000000)) (.xor (.var 3) (.sub (.mul (.mul (.lit 2 1) (.var 1)) (.var 2)) (.mul (.mul (.lit 3333333333333333 10000000000000000) (.var 1)) (.var 2))))) (.var 3)) (.sub (.mul (.mul (.lit 4 1) (.var 1)) (.var 2)) (.mul (.mul (.lit 2 10) (.var 1)) (.var 2)))),
  .mul (.mul (.lit 1205608232776094 100000000000000) (.coef 336)) (.xor (.add (.mul (.neg (.lit 8571428571428571 10000000000000000)) (.xor (.mul (.mul (.var 3) (.var 4)) (.var 0)) (.sub (.mul (.lit 2 1) (.var 2)) (.mul (.mul (.mul (.lit 3333333333333333 10000000000000000) (.var 3)) (.var 4)) (.var 2))))) (.mul (.mul (.var 3) (.var 4)) (.var 0))) (.sub (.mul (.lit 4 1) (.var 2)) (.mul (.mul (.mul (.lit 2 10) (.var 3)) (.var 4)) (.var 2)))),
  .mul (.mul (.mul (.mul (.lit 5966213466261491 1000000000000000) (.coef 246)) (.pos (.lit 6960582377305072 1000000000000000))) (.coef 296)) (.xor (.add (.mul (.neg (.lit 8571428571428571 10000000000000000)) (.xor (.mul (.var 4) (.var 0)) (.sub (.mul (.lit 2 1) (.var 2)) (.mul (.mul (.lit 3333333333333333 10000000000000000) (.var 4)) (.var 2))))) (.mul (.var 4) (.var 0))) (.sub (.mul (.lit 4 1) (.var 2)) (.mul (.mul (.lit 2 10) (.var 4)) (.var 2)))),
  .mul (.mul (.mul (.mul (.lit 5966213466261491 1000000000000000) (.coef 255)) (.pos (.lit 6960582377305072 1000000000000000))) (.coef 287)) (.xor (.add (.mul (.neg (.lit 8571428571428571 10000000000000000)) (.xor (.mul (.var 3) (.var 0)) (.sub (.mul (.lit 2 1) (.var 2)) (.mul (.mul (.lit 3333333333333333 10000000000000000) (.var 3)) (.var 2))))) (.mul (.var 3) (.var 0))) (.sub (.mul (.lit 4 1) (.var 2)) (.mul (.mul (.lit 2 10) (.var 3)) (.var 2)))),
  .mul (.mul (.mul (.mul (.mul (.mul (.lit 3444594950788841 1000000000000000) (.coef 167)) (.pos (.lit 3444594950788841 1000000000000000))) (.coef 155)) (.pos (.lit 4018694109253648 1000000000000000))) (.coef 209)) (.xor (.add (.mul (.neg (.lit 8571428571428571 10000000000000000)) (.xor (.var 0) (.sub (.mul (.lit 2 1) (.var 2)) (.mul (.lit 3333333333333333 10000000000000000) (.var 2))))) (.var 0)) (.sub (.mul (.lit 4 1) (.var 2)) (.mul (.lit 2 10) (.var 2)))),
  .mul (.mul (.lit 1205608232776094 100000000000000) (.coef 345)) (.xor (.add (.mul (.neg (.lit 8571428571428571 10000000000000000)) (.xor (.mul (.var 3) (.var 4)) (.sub (.mul (.mul (.lit 2 1) (.var 0)) (.var 2)) (.mul (.mul (.mul (.lit 3333333333333333 10000000000000000) (.var 3)) (.var 0)) (.var 2))))) (.mul (.var 3) (.var 4))) (.sub (.mul (.mul (.lit 4 1) (.var 0)) (.var 2)) (.mul (.mul (.mul (.lit 2 10) (.var 3)) (.var 0)) (.var 2)))),
  .mul (.mul (.mul (.mul (.lit 5966213466261491 1000000000000000) (.coef 260)) (.pos (.lit 6960582377305072 1000000000000000))) (.coef 307)) (.xor (.add (.mul (.neg (.lit 8571428571428571 10000000000000000)) (.xor (.var 4) (.sub (.mul (.mul (.lit 2 1) (.var 0)) (.var 2)) (.mul (.mul (.lit 3333333333333333 10000000000000000) (.var 0)) (.var 2))))) (.var 4)) (.sub (.mul (.mul (.lit 4 1) (.var 0)) (.var 2)) (.mul (.mul (.lit 2 10) (.var 0)) (.var 2)))),
  .mul (.mul (.lit 1205608232776094 100000000000000) (.coef 341)) (.xor (.add (.mul (.neg (.lit 8571428571428571 10000000000000000)) (.xor (.var 3) (.sub (.mul (.mul (.mul (.lit 2 1) (.var 4)) (.var 0)) (.var 2)) (.mul (.mul (.mul (.lit 3333333333333333 10000000000000000) (.var 4)) (.var 0)) (.var 2))))) (.var 3)) (.sub (.mul (.mul (.mul (.lit 4 1) (.var 4)) (.var 0)) (.var 2)) (.mul (.mul (.mul (.lit 2 10) (.var 4)) (.var 0)) (.var 2)))),
  .mul (.mul (.lit 6960582377305072 1000000000000000) (.coef 292)) (.xor (.add (.mul (.neg (.lit 8571428571428571 10000000000000000)) (.xor (.var 3) (.sub (.mul (.mul (.lit 2 1) (.var 0)) (.var 2)) (.mul (.mul (.lit 3333333333333333 10000000000000000) (.var 0)) (.var 2))))) (.var 3)) (.sub (.mul (.mul (.lit 4 1) (.var 0)) (.var 2)) (.mul (.mul (.lit 2 10) (.var 0)) (.var 2)))),
  .mul (.mul (.lit 6960582377305072 1000000000000000) (.coef 311)) (.xor (.add (.mul (.neg (.lit 8571428571428571 10000000000000000)) (.xor (.mul (.var 3) (.var 4)) (.sub (.mul (.lit 2 1) (.var 2)) (.mul (.mul (.lit 3333333333333333 10000000000000000) (.var 3)) (.var 2))))) (.mul (.var 3) (.var 4))) (.sub (.mul (.lit 4 1) (.var 2)) (.mul (.mul (.lit 2 10) (.var 3)) (.var 2)))),
  .mul (.mul (.mul (.mul (.lit 3444594950788841 1000000000000000) (.coef 176)) (.pos (.lit 4018694109253648 1000000000000000))) (.coef 225)) (.xor (.add (.mul (.neg (.lit 8571428571428571 10000000000000000)) (.xor (.var 4) (.sub (.mul (.lit 2 1) (.var 2)) (.mul (.lit 3333333333333333 10000000000000000) (.var 2))))) (.var 4)) (.sub (.mul (.lit 4 1) (.var 2)) (.mul (.lit 2 10) (.var 2)))),
  .mul (.mul (.lit 6960582377305072 1000000000000000) (.coef 305)) (.xor (.add (.mul (.neg (.lit 8571428571428571 10000000000000000)) (.xor (.var 3) (.sub (.mul (.mul (.lit 2 1) (.var 4)) (.var 2)) (.mul (.mul (.lit 3333333333333333 10000000000000000) (.var 4)) (.var 2))))) (.var 3)) (.sub (.mul (.mul (.lit 4 1) (.var 4)) (.var 2)) (.mul (.mul (.lit 2 10) (.var 4)) (.var 2)))),
  .mul (.mul (.lit 4018694109253648 1000000000000000) (.coef 218)) (.xor (.add (.mul (.neg (.lit 8571428571428571 10000000000000000)) (.xor (.var 3) (.sub (.mul (.lit 2 1) (.var 2)) (.mul (.lit 3333333333333333 10000000000000000) (.var 2))))) (.var 3)) (.sub (.mul (.lit 4 1) (.var 2)) (.mul (.lit 2 10) (.var 2)))),
  .mul (.mul (.lit 1052341140030171 100000000000000) (.coef 323)) (.xor (.mul (.mul (.mul (.var 3) (.var 4)) (.var 0)) (.var 1)) (.sub (.mul (.lit 3 1) (.var 2)) (.mul (.mul (.mul (.mul (.mul (.lit 6 10) (.var 3)) (.var 4)) (.var 0)) (.var 1)) (.var 2)))),
  .mul (.mul (.lit 6075694404757366 1000000000000000) (.coef 267)) (.xor (.mul (.mul (.var 4) (.var 0)) (.var 1)) (.sub (.mul (.lit 3 1) (.var 2)) (.mul (.mul (.mul (.mul (.lit 6 10) (.var 4)) (.var 0)) (.var 1)) (.var 2)))),
  .mul (.mul (.lit 6075694404757366 1000000000000000) (.coef 263)) (.xor (.mul (.mul (.var 3) (.var 0)) (.var 1)) (.sub (.mul (.lit 3 1) (.var 2)) (.mul (.mul (.mul (.mul (.lit 6 10) (.var 3)) (.var 0)) (.var 1)) (.var 2)))),
  .mul (.mul (.lit 3507803800100568 1000000000000000) (.coef 178)) (.xor (.mul (.var 0) (.var 1)) (.sub (.mul (.lit 3 1) (.var 2)) (.mul (.mul (.mul (.lit 6 10) (.var 0)) (.var 1)) (.var 2)))),
  .mul (.mul (.lit 6075694404757366 1000000000000000) (.coef 272)) (.xor (.mul (.mul (.var 3) (.var 4)) (.var 1)) (.sub (.mul (.lit 3 1) (.var 2)) (.mul (.mul (.mul (.mul (.lit 6 10) (.var 3)) (.var 4)) (.var 1)) (.var 2)))),
  .mul (.mul (.lit 3507803800100568 1000000000000000) (.coef 192)) (.xor (.mul (.var 4) (.var 1)) (.sub (.mul (.lit 3 1) (.var 2)) (.mul (.mul (.mul (.lit 6 10) (.var 4)) (.var 1)) (.var 2)))),
  .mul (.mul (.lit 3507803800100568 1000000000000000) (.coef 183)) (.xor (.mul (.var 3) (.var 1)) (.sub (.mul (.lit 3 1) (.var 2)) (.mul (.mul (.mul (.lit 6 10) (.var 3)) (.var 1)) (.var 2)))),
  .mul (.mul (.lit 2025231468252455 1000000000000000) (.coef 104)) (.xor (.var 1) (.sub (.mul (.lit 3 1) (.var 2)) (.mul (.mul (.lit 6 10) (.var 1)) (.var 2)))),
  .mul (.mul (.lit 5336343551534138 1000000000000000) (.coef 228)) (.xor (.mul (.mul (.mul (.var 3) (.var 4)) (.var 0)) (.var 1)) (.sub (.mul (.lit 2 1) (.var 2)) (.mul (.mul (.mul (.mul (.lit 3333333333333333 10000000000000000) (.var 3)) (.var 4)) (.var 0)) (.var 2)))),
  .mul (.mul (.lit 3080939385966558 1000000000000000) (.coef 132)) (.xor (.mul (.mul (.var 4) (.var 0)) (.var 1)) (.sub (.mul (.lit 2 1) (.var 2)) (.mul (.mul (.mul (.lit 3333333333333333 10000000000000000) (.var 4)) (.var 0)) (.var 2)))),
  .mul (.mul (.lit 3080939385966558 1000000000000000) (.coef 128)) (.xor (.mul (.mul (.var 3) (.var 0)) (.var 1)) (.sub (.mul (.lit 2 1) (.var 2)) (.mul (.mul (.mul (.lit 3333333333333333 10000000000000000) (.var 3)) (.var 0)) (.var 2)))),
  .mul (.mul (.lit 1778781183844713 1000000000000000) (.coef 62)) (.xor (.mul (.var 0) (.var 1)) (.sub (.mul (.lit 2 1) (.var 2)) (.mul (.mul (.lit 3333333333333333 10000000000000000) (.var 0)) (.var 2)))),
  .mul (.mul (.lit 3080939385966558 1000000000000000) (.coef 137)) (.xor (.mul (.mul (.var 3) (.var 4)) (.var 1)) (.sub (.mul (.lit 2 1) (.var 2)) (.mul (.mul (.mul (.lit 3333333333333333 10000000000000000) (.var 3)) (.var 4)) (.var 2)))),
  .mul (.mul (.lit 1778781183844713 1000000000000000) (.coef 76)) (.xor (.mul (.var 4) (.var 1)) (.sub (.mul (.lit 2 1) (.var 2)) (.mul (.mul (.lit 3333333333333333 10000000000000000) (.var 4)) (.var 2)))),
  .mul (.mul (.lit 1778781183844713 1000000000000000) (.coef 67)) (.xor (.mul (.var 3) (.var 1)) (.sub (.mul (.lit 2 1) (.var 2)) (.mul (.mul (.lit 3333333333333333 10000000000000000) (.var 3)) (.var 2)))),
  .mul (.mul (.lit 1026979795322186 1000000000000000) (.coef 34)) (.xor (.var 1) (.sub (.mul (.lit 2 1) (.var 2)) (.mul (.lit 3333333333333333 10000000000000000) (.var 2)))),
  .mul (.mul (.lit 1052341140030171 100000000000000) (.coef 322)) (.xor (.mul (.mul (.var 3) (.var 4)) (.var 0)) (.sub (.mul (.mul (.lit 3 1) (.var 1)) (.var 2)) (.mul (.mul (.mul (.mul (.mul (.lit 6 10) (.var 3)) (.var 4)) (.var 0)) (.var 1)) (.var 2)))),
  .mul (.mul (.lit 6075694404757366 1000000000000000) (.coef 266)) (.xor (.mul (.var 4) (.var 0)) (.sub (.mul (.mul (.lit 3 1) (.var 1)) (.var 2)) (.mul (.mul (.mul (.mul (.lit 6 10) (.var 4)) (.var 0)) (.var 1)) (.var 2)))),
  .mul (.mul (.lit 6075694404757366 1000000000000000) (.coef 262)) (.xor (.mul (.var 3) (.var 0)) (.sub (.mul (.mul (.lit 3 1) (.var 1)) (.var 2)) (.mul (.mul (.mul (.mul (.lit 6 10) (.var 3)) (.var 0)) (.var 1)) (.var 2)))),
  .mul (.mul (.lit 3507803800100568 1000000000000000) (.coef 177)) (.xor (.var 0) (.sub (.mul (.mul (.lit 3 1) (.var 1)) (.var 2)) (.mul (.mul (.mul (.lit 6 10) (.var 0)) (.var 1)) (.var 2)))),
  .mul (.mul (.lit 5336343551534138 1000000000000000) (.coef 227)) (.xor (.mul (.mul (.var 3) (.var 4)) (.var 0)) (.sub (.mul (.mul (.lit 2 1) (.var 1)) (.var 2)) (.mul (.mul (.mul (.mul (.lit 3333333333333333 10000000000000000) (.var 3)) (.var 4)) (.var 1)) (.var 2)))),
  .mul (.mul (.lit 3080939385966558 1000000000000000) (.coef 131)) (.xor (.mul (.var 4) (.var 0)) (.sub (.mul (.mul (.lit 2 1) (.var 1)) (.var 2)) (.mul (.mul (.mul (.lit 3333333333333333 10000000000000000) (.var 4)) (.var 1)) (.var 2)))),
  .mul (.mul (.lit 3080939385966558 1000000000000000) (.coef 127)) (.xor (.mul (.var 3) (.var 0)) (.sub (.mul (.mul (.lit 2 1) (.var 1)) (.var 2)) (.mul (.mul (.mul (.lit 3333333333333333 10000000000000000) (.var 3)) (.var 1)) (.var 2)))),
  .mul (.mul (.lit 1778781183844713 1000000000000000) (.coef 61)) (.xor (.var 0) (.sub (.mul (.mul (.lit 2 1) (.var 1)) (.var 2)) (.mul (.mul (.lit 3333333333333333 10000000000000000) (.var 1)) (.var 2)))),
  .mul (.mul (.lit 1052341140030171 100000000000000) (.coef 326)) (.xor (.mul (.var 3) (.var 4)) (.sub (.mul (.mul (.mul (.lit 3 1) (.var 0)) (.var 1)) (.var 2)) (.mul (.mul (.mul (.mul (.mul (.lit 6 10) (.var 3)) (.var 4)) (.var 0)) (.var 1)) (.var 2)))),
  .mul (.mul (.lit 6075694404757366 1000000000000000) (.coef 278)) (.xor (.var 4) (.sub (.mul (.mul (.mul (.lit 3 1) (.var 0)) (.var 1)) (.var 2)) (.mul (.mul (.mul (.mul (.lit 6 10) (.var 4)) (.var 0)) (.var 1)) (.var 2)))),
  .mul (.mul (.lit 5336343551534138 1000000000000000) (.coef 231)) (.xor (.mul (.var 3) (.var 4)) (.sub (.mul (.mul (.mul (.lit 2 1) (.var 0)) (.var 1)) (.var 2)) (.mul (.mul (.mul (.mul (.lit 3333333333333333 10000000000000000) (.var 3)) (.var 0)) (.var 1)) (.var 2)))),
  .mul (.mul (.lit 3080939385966558 1000000000000000) (.coef 143)) (.xor (.var 4) (.sub (.mul (.mul (.mul (.lit 2 1) (.var 0)) (.var 1)) (.var 2)) (.mul (.mul (.mul (.lit 3333333333333333 10000000000000000) (.var 0)) (.var 1)) (.var 2)))),
  .mul (.mul (.lit 1052341140030171 100000000000000) (.coef 325)) (.xor (.var 3) (.sub (.mul (.mul (.mul (.mul (.lit 3 1) (.var 4)) (.var 0)) (.var 1)) (.var 2)) (.mul (.mul (.mul (.mul (.mul (.lit 6 10) (.var 3)) (.var 4)) (.var 0)) (.var 1)) (.var 2)))),
  .mul (.mul (.lit 5336343551534138 1000000000000000) (.coef 230)) (.xor (.var 3) (.sub (.mul (.mul (.mul (.mul (.lit 2 1) (.var 4)) (.var 0)) (.var 1)) (.var 2)) (.mul (.mul (.mul (.mul (.lit 3333333333333333 10000000000000000) (.var 4)) (.var 0)) (.var 1)) (.var 2)))),
  .mul (.mul (.lit 6075694404757366 1000000000000000) (.coef 265)) (.xor (.var 3) (.sub (.mul (.mul (.mul (.lit 3 1) (.var 0)) (.var 1)) (.var 2)) (.mul (.mul (.mul (.mul (.lit 6 10) (.var 3)) (.var 0)) (.var 1)) (.var 2)))),
  .mul (.mul (.lit 3080939385966558 1000000000000000) (.coef 130)) (.xor (.var 3) (.sub (.mul (.mul (.mul (.lit 2 1) (.var 0)) (.var 1)) (.var 2)) (.mul (.mul (.mul (.lit 3333333333333333 10000000000000000) (.var 0)) (.var 1)) (.var 2)))),
  .mul (.mul (.lit 6075694404757366 1000000000000000) (.coef 281)) (.xor (.mul (.var 3) (.var 4)) (.sub (.mul (.mul (.lit 3 1) (.var 1)) (.var 2)) (.mul (.mul (.mul (.mul (.lit 6 10) (.var 3)) (.var 4)) (.var 1)) (.var 2)))),
  .mul (.mul (.lit 3507803800100568 1000000000000000) (.coef 203)) (.xor (.var 4) (.sub (.mul (.mul (.lit 3 1) (.var 1)) (.var 2)) (.mul (.mul (.mul (.lit 6 10) (.var 4)) (.var 1)) (.var 2)))),
  .mul (.mul (.lit 3080939385966558 1000000000000000) (.coef 146)) (.xor (.mul (.var 3) (.var 4)) (.sub (.mul (.mul (.lit 2 1) (.var 1)) (.var 2)) (.mul (.mul (.mul (.lit 3333333333333333 10000000000000000) (.var 3)) (.var 1)) (.var 2)))),
  .mul (.mul (.lit 1778781183844713 1000000000000000) (.coef 87)) (.xor (.var 4) (.sub (.mul (.mul (.lit 2 1) (.var 1)) (.var 2)) (.mul (.mul (.lit 3333333333333333 10000000000000000) (.var 1)) (.var 2)))),
  .mul (.mul (.lit 6075694404757366 1000000000000000) (.coef 277)) (.xor (.var 3) (.sub (.mul (.mul (.mul (.lit 3 1) (.var 4)) (.var 1)) (.var 2)) (.mul (.mul (.mul (.mul (.lit 6 10) (.var 3)) (.var 4)) (.var 1)) (.var 2)))),
  .mul (.mul (.lit 3080939385966558 1000000000000000) (.coef 142)) (.xor (.var 3) (.sub (.mul (.mul (.mul (.lit 2 1) (.var 4)) (.var 1)) (.var 2)) (.mul (.mul (.mul (.lit 3333333333333333 10000000000000000) (.var 4)) (.var 1)) (.var 2)))),
  .mul (.mul (.lit 3507803800100568 1000000000000000) (.coef 188)) (.xor (.var 3) (.sub (.mul (.mul (.lit 3 1) (.var 1)) (.var 2)) (.mul (.mul (.mul (.lit 6 10) (.var 3)) (.var 1)) (.var 2)))),
  .mul (.mul (.lit 1778781183844713 1000000000000000) (.coef 72)) (.xor (.var 3) (.sub (.mul (.mul (.lit 2 1) (.var 1)) (.var 2)) (.mul (.mul (.lit 3333333333333333 10000000000000000) (.var 1)) (.var 2)))),
  .mul (.mul (.lit 6075694404757366 1000000000000000) (.coef 271)) (.xor (.mul (.mul (.var 3) (.var 4)) (.var 0)) (.sub (.mul (.lit 3 1) (.var 2)) (.mul (.mul (.mul (.mul (.lit 6 10) (.var 3)) (.var 4)) (.var 0)) (.var 2)))),
  .mul (.mul (.lit 3507803800100568 1000000000000000) (.coef 191)) (.xor (.mul (.var 4) (.var 0)) (.sub (.mul (.lit 3 1) (.var 2)) (.mul (.mul (.mul (.lit 6 10) (.var 4)) (.var 0)) (.var 2)))),
  .mul (.mul (.lit 3507803800100568 1000000000000000) (.coef 182)) (.xor (.mul (.var 3) (.var 0)) (.sub (.mul (.lit 3 1) (.var 2)) (.mul (.mul (.mul (.lit 6 10) (.var 3)) (.var 0)) (.var 2)))),
  .mul (.mul (.lit 2025231468252455 1000000000000000) (.coef 103)) (.xor (.var 0) (.sub (.mul (.lit 3 1) (.var 2)) (.mul (.mul (.lit 6 10) (.var 0)) (.var 2)))),
  .mul (.mul (.lit 3080939385966558 1000000000000000) (.coef 136)) (.xor (.mul (.mul (.var 3) (.var 4)) (.var 0)) (.sub (.mul (.lit 2 1) (.var 2)) (.mul (.mul (.mul (.lit 3333333333333333 10000000000000000) (.var 3)) (.var 4)) (.var 2)))),
  .mul (.mul (.lit 1778781183844713 1000000000000000) (.coef 75)) (.xor (.mul (.var 4) (.var 0)) (.sub (.mul (.lit 2 1) (.var 2)) (.mul (.mul (.lit 3333333333333333 10000000000000000) (.var 4)) (.var 2)))),
  .mul (.mul (.lit 1778781183844713 1000000000000000) (.coef 66)) (.xor (.mul (.var 3) (.var 0)) (.sub (.mul (.lit 2 1) (.var 2)) (.mul (.mul (.lit 3333333333333333 10000000000000000) (.var 3)) (.var 2)))),
  .mul (.mul (.lit 1026979795322186 1000000000000000) (.coef 33)) (.xor (.var 0) (.sub (.mul (.lit 2 1) (.var 2)) (.mul (.lit 3333333333333333 10000000000000000) (.var 2)))),
  .mul (.mul (.lit 6075694404757366 1000000000000000) (.coef 280)) (.xor (.mul (.var 3) (.var 4)) (.sub (.mul (.mul (.lit 3 1) (.var 0)) (.var 2)) (.mul (.mul (.mul (.mul (.lit 6 10) (.var 3)) (.var 4)) (.var 0)) (.var 2)))),
  .mul (.mul (.lit 3507803800100568 1000000000000000) (.coef 202)) (.xor (.var 4) (.sub (.mul (.mul (.lit 3 1) (.var 0)) (.var 2)) (.mul (.mul (.mul (.lit 6 10) (.var 4)) (.var 0)) (.var 2)))),
  .mul (.mul (.lit 3080939385966558 1000000000000000) (.coef 145)) (.xor (.mul (.var 3) (.var 4)) (.sub (.mul (.mul (.lit 2 1) (.var 0)) (.var 2)) (.mul (.mul (.mul (.lit 3333333333333333 10000000000000000) (.var 3)) (.var 0)) (.var 2)))),
  .mul (.mul (.lit 1778781183844713 1000000000000000) (.coef 86)) (.xor (.var 4) (.sub (.mul (.mul (.lit 2 1) (.var 0)) (.var 2)) (.mul (.mul (.lit 3333333333333333 10000000000000000) (.var 0)) (.var 2)))),
  .mul (.mul (.lit 6075694404757366 1000000000000000) (.coef 276)) (.xor (.var 3) (.sub (.mul (.mul (.mul (.lit 3 1) (.var 4)) (.var 0)) (.var 2)) (.mul (.mul (.mul (.mul (.lit 6 10) (.var 3)) (.var 4)) (.var 0)) (.var 2)))),
  .mul (.mul (.lit 3080939385966558 1000000000000000) (.coef 141)) (.xor (.var 3) (.sub (.mul (.mul (.mul (.lit 2 1) (.var 4)) (.var 0)) (.var 2)) (.mul (.mul (.mul (.lit 3333333333333333 10000000000000000) (.var 4)) (.var 0)) (.var 2)))),
  .mul (.mul (.lit 3507803800100568 1000000000000000) (.coef 187)) (.xor (.var 3) (.sub (.mul (.mul (.lit 3 1) (.var 0)) (.var 2)) (.mul (.mul (.mul (.lit 6 10) (.var 3)) (.var 0)) (.var 2)))),
  .mul (.mul (.lit 1778781183844713 1000000000000000) (.coef 71)) (.xor (.var 3) (.sub (.mul (.mul (.lit 2 1) (.var 0)) (.var 2)) (.mul (.mul (.lit 3333333333333333 10000000000000000) (.var 0)) (.var 2)))),
  .mul (.mul (.lit 3507803800100568 1000000000000000) (.coef 206)) (.xor (.mul (.var 3) (.var 4)) (.sub (.mul (.lit 3 1) (.var 2)) (.mul (.mul (.mul (.lit 6 10) (.var 3)) (.var 4)) (.var 2)))),
  .mul (.mul (.lit 2025231468252455 1000000000000000) (.coef 119)) (.xor (.var 4) (.sub (.mul (.lit 3 1) (.var 2)) (.mul (.mul (.lit 6 10) (.var 4)) (.var 2)))),
  .mul (.mul (.lit 1778781183844713 1000000000000000) (.coef 90)) (.xor (.mul (.var 3) (.var 4)) (.sub (.mul (.lit 2 1) (.var 2)) (.mul (.mul (.lit 3333333333333333 10000000000000000) (.var 3)) (.var 2)))),
  .mul (.mul (.lit 1026979795322186 1000000000000000) (.coef 49)) (.xor (.var 4) (.sub (.mul (.lit 2 1) (.var 2)) (.mul (.lit 3333333333333333 10000000000000000) (.var 2)))),
  .mul (.mul (.lit 3507803800100568 1000000000000000) (.coef 200)) (.xor (.var 3) (.sub (.mul (.mul (.lit 3 1) (.var 4)) (.var 2)) (.mul (.mul (.mul (.lit 6 10) (.var 3)) (.var 4)) (.var 2)))),
  .mul (.mul (.lit 1778781183844713 1000000000000000) (.coef 84)) (.xor (.var 3) (.sub (.mul (.mul (.lit 2 1) (.var 4)) (.var 2)) (.mul (.mul (.lit 3333333333333333 10000000000000000) (.var 4)) (.var 2)))),
  .mul (.mul (.lit 2025231468252455 1000000000000000) (.coef 112)) (.xor (.var 3) (.sub (.mul (.lit 3 1) (.var 2)) (.mul (.mul (.lit 6 10) (.var 3)) (.var 2)))),
  .mul (.mul (.lit 1026979795322186 1000000000000000) (.coef 42)) (.xor (.var 3) (.sub (.mul (.lit 2 1) (.var 2)) (.mul (.lit 3333333333333333 10000000000000000) (.var 2)))),
  .mul (.mul (.mul (.mul (.mul (.mul (.lit 2755675960631073 1000000000000000) (.coef 126)) (.var 3)) (.var 4)) (.var 0)) (.var 1)) (.var 2),
  .mul (.mul (.mul (.mul (.mul (.lit 1590990257669731 1000000000000000) (.coef 57)) (.var 4)) (.var 0)) (.var 1)) (.var 2),
  .mul (.mul (.mul (.mul (.mul (.lit 1590990257669731 1000000000000000) (.coef 56)) (.var 3)) (.var 0)) (.var 1)) (.var 2),
  .mul (.mul (.mul (.mul (.lit 9185586535436913 10000000000000000) (.coef 21)) (.var 0)) (.var 1)) (.var 2),
  .mul (.mul (.mul (.mul (.mul (.lit 1590990257669731 1000000000000000) (.coef 60)) (.var 3)) (.var 4)) (.var 1)) (.var 2),
  .mul (.mul (.mul (.mul (.lit 9185586535436913 10000000000000000) (.coef 27)) (.var 4)) (.var 1)) (.var 2),
  .mul (.mul (.mul (.mul (.lit 9185586535436913 10000000000000000) (.coef 24)) (.var 3)) (.var 1)) (.var 2),
  .mul (.mul (.mul (.lit 5303300858899105 10000000000000000) (.coef 8)) (.var 1)) (.var 2),
  .mul (.mul (.mul (.mul (.mul (.lit 1590990257669731 1000000000000000) (.coef 59)) (.var 3)) (.var 4)) (.var 0)) (.var 2),
  .mul (.mul (.mul (.mul (.lit 9185586535436913 10000000000000000) (.coef 26)) (.var 4)) (.var 0)) (.var 2),
  .mul (.mul (.mul (.mul (.lit 9185586535436913 10000000000000000) (.coef 23)) (.var 3)) (.var 0)) (.var 2),
  .mul (.mul (.mul (.lit 5303300858899105 10000000000000000) (.coef 7)) (.var 0)) (.var 2),
  .mul (.mul (.mul (.mul (.lit 9185586535436913 10000000000000000) (.coef 30)) (.var 3)) (.var 4)) (.var 2),
  .mul (.mul (.mul (.lit 5303300858899105 10000000000000000) (.coef 14)) (.var 4)) (.var 2),
  .mul (.mul (.mul (.lit 5303300858899105 10000000000000000) (.coef 11)) (.var 3)) (.var 2),
  .mul (.mul (.lit 3061862178478971 10000000000000000) (.coef 3)) (.var 2),
  .mul (.mul (.lit 1205608232776094 100000000000000) (.coef 335)) (.xor (.mul (.mul (.mul (.var 3) (.var 4)) (.var 0)) (.var 1)) (.sub (.sub (.lit 4 1) (.mul (.lit 8571428571428571 10000000000000000) (.xor (.mul (.mul (.mul (.var 3) (.var 4)) (.var 0)) (.var 1)) (.sub (.lit 2 1) (.mul (.mul (.mul (.lit 3333333333333333 10000000000000000) (.var 3)) (.var 4)) (.var 0)))))) (.mul (.mul (.mul (.lit 2 10) (.var 3)) (.var 4)) (.var 0)))),
  .mul (.mul (.lit 6960582377305072 1000000000000000) (.coef 295)) (.xor (.mul (.mul (.var 4) (.var 0)) (.var 1)) (.sub (.sub (.lit 4 1) (.mul (.lit 8571428571428571 10000000000000000) (.xor (.mul (.mul (.var 4) (.var 0)) (.var 1)) (.sub (.lit 2 1) (.mul (.mul (.lit 3333333333333333 10000000000000000) (.var 4)) (.var 0)))))) (.mul (.mul (.lit 2 10) (.var 4)) (.var 0)))),
  .mul (.mul (.lit 6960582377305072 1000000000000000) (.coef 286)) (.xor (.mul (.mul (.var 3) (.var 0)) (.var 1)) (.sub (.sub (.lit 4 1) (.mul (.lit 8571428571428571 10000000000000000) (.xor (.mul (.mul (.var 3) (.var 0)) (.var 1)) (.sub (.lit 2 1) (.mul (.mul (.lit 3333333333333333 10000000000000000) (.var 3)) (.var 0)))))) (.mul (.mul (.lit 2 10) (.var 3)) (.var 0)))),
  .mul (.mul (.lit 4018694109253648 1000000000000000) (.coef 208)) (.xor (.mul (.var 0) (.var 1)) (.sub (.sub (.lit 4 1) (.mul (.lit 8571428571428571 10000000000000000) (.xor (.mul (.var 0) (.var 1)) (.sub (.lit 2 1) (.mul (.lit 3333333333333333 10000000000000000) (.var 0)))))) (.mul (.lit 2 10) (.var 0)))),
  .mul (.mul (.lit 6960582377305072 1000000000000000) (.coef 301)) (.xor (.mul (.mul (.var 3) (.var 4)) (.var 1)) (.sub (.sub (.lit 4 1) (.mul (.lit 8571428571428571 10000000000000000) (.xor (.mul (.mul (.var 3) (.var 4)) (.var 1)) (.sub (.lit 2 1) (.mul (.mul (.lit 3333333333333333 10000000000000000) (.var 3)) (.var 4)))))) (.mul (.mul (.lit 2 10) (.var 3)) (.var 4)))),
  .mul (.mul (.lit 4018694109253648 1000000000000000) (.coef 220)) (.xor (.mul (.var 4) (.var 1)) (.sub (.sub (.lit 4 1) (.mul (.lit 8571428571428571 10000000000000000) (.xor (.mul (.var 4) (.var 1)) (.sub (.lit 2 1) (.mul (.lit 3333333333333333 10000000000000000) (.var 4)))))) (.mul (.lit 2 10) (.var 4)))),
  .mul (.mul (.lit 4018694109253648 1000000000000000) (.coef 214)) (.xor (.mul (.var 3) (.var 1)) (.sub (.sub (.lit 4 1) (.mul (.lit 8571428571428571 10000000000000000) (.xor (.mul (.var 3) (.var 1)) (.sub (.lit 2 1) (.mul (.lit 3333333333333333 10000000000000000) (.var 3)))))) (.mul (.lit 2 10) (.var 3)))),
  .mul (.mul (.lit 2320194125768357 1000000000000000) (.coef 122)) (.xor (.var 1) (.sub (.sub (.lit 4 1) (.mul (.lit 8571428571428571 10000000000000000) (.xor (.var 1) (.sub (.lit 2 1) (.lit 3333333333333333 10000000000000000))))) (.lit 2 10))),
  .mul (.mul (.lit 6075694404757366 1000000000000000) (.coef 270)) (.xor (.mul (.mul (.mul (.var 3) (.var 4)) (.var 0)) (.var 1)) (.sub (.lit 3 1) (.mul (.mul (.mul (.mul (.lit 6 10) (.var 3)) (.var 4)) (.var 0)) (.var 1)))),
  .mul (.mul (.lit 3507803800100568 1000000000000000) (.coef 190)) (.xor (.mul (.mul (.var 4) (.var 0)) (.var 1)) (.sub (.lit 3 1) (.mul (.mul (.mul (.lit 6 10) (.var 4)) (.var 0)) (.var 1)))),
  .mul (.mul (.lit 3507803800100568 1000000000000000) (.coef 181)) (.xor (.mul (.mul (.var 3) (.var 0)) (.var 1)) (.sub (.lit 3 1) (.mul (.mul (.mul (.lit 6 10) (.var 3)) (.var 0)) (.var 1)))),
  .mul (.mul (.lit 2025231468252455 1000000000000000) (.coef 102)) (.xor (.mul (.var 0) (.var 1)) (.sub (.lit 3 1) (.mul (.mul (.lit 6 10) (.var 0)) (.var 1)))),
  .mul (.mul (.lit 3507803800100568 1000000000000000) (.coef 196)) (.xor (.mul (.mul (.var 3) (.var 4)) (.var 1)) (.sub (.lit 3 1) (.mul (.mul (.mul (.lit 6 10) (.var 3)) (.var 4)) (.var 1)))),
  .mul (.mul (.lit 2025231468252455 1000000000000000) (.coef 114)) (.xor (.mul (.var 4) (.var 1)) (.sub (.lit 3 1) (.mul (.mul (.lit 6 10) (.var 4)) (.var 1)))),
  .mul (.mul (.lit 2025231468252455 1000000000000000) (.coef 108)) (.xor (.mul (.var 3) (.var 1)) (.sub (.lit 3 1) (.mul (.mul (.lit 6 10) (.var 3)) (.var 1)))),
  .mul (.mul (.lit 1169267933366856 1000000000000000) (.coef 52)) (.xor (.var 1) (.sub (.lit 3 1) (.mul (.lit 6 10) (.var 1)))),
  .mul (.mul (.mul (.mul (.mul (.mul (.mul (.mul (.mul (.mul (.mul (.mul (.mul (.mul (.mul (.mul (.mul (.mul (.mul (.mul (.mul (.mul (.lit 5966213466261491 1000000000000000) (.coef 245)) (.pos (.lit 5966213466261491 1000000000000000))) (.coef 254)) (.pos (.lit 3444594950788841 1000000000000000))) (.coef 166)) (.pos (.lit 3444594950788841 1000000000000000))) (.coef 154)) (.pos (.lit 5966213466261491 1000000000000000))) (.coef 241)) (.pos (.lit 3444594950788841 1000000000000000))) (.coef 159)) (.pos (.lit 3444594950788841 1000000000000000))) (.coef 163)) (.pos (.lit 3444594950788841 1000000000000000))) (.coef 150)) (.pos (.lit 3444594950788841 1000000000000000))) (.coef 172)) (.pos (.lit 1988737822087164 1000000000000000))) (.coef 91)) (.pos (.lit 3080939385966558 1000000000000000))) (.coef 135)) (.xor (.mul (.mul (.mul (.var 3) (.var 4)) (.var 0)) (.var 1)) (.sub (.lit 2 1) (.mul (.mul (.mul (.lit 3333333333333333 10000000000000000) (.var 3)) (.var 4)) (.var 0)))),
  .mul (.mul (.lit 1778781183844713 1000000000000000) (.coef 74)) (.xor (.mul (.mul (.var 4) (.var 0)) (.var 1)) (.sub (.lit 2 1) (.mul (.mul (.lit 3333333333333333 10000000000000000) (.var 4)) (.var 0)))),
  .mul (.mul (.lit 1778781183844713 1000000000000000) (.coef 65)) (.xor (.mul (.mul (.var 3) (.var 0)) (.var 1)) (.sub (.lit 2 1) (.mul (.mul (.lit 3333333333333333 10000000000000000) (.var 3)) (.var 0)))),
  .mul (.mul (.lit 1026979795322186 1000000000000000) (.coef 32)) (.xor (.mul (.var 0) (.var 1)) (.sub (.lit 2 1) (.mul (.lit 3333333333333333 10000000000000000) (.var 0)))),
  .mul (.mul (.mul (.mul (.lit 1988737822087164 1000000000000000) (.coef 98)) (.pos (.lit 1778781183844713 1000000000000000))) (.coef 80)) (.xor (.mul (.mul (.var 3) (.var 4)) (.var 1)) (.sub (.lit 2 1) (.mul (.mul (.lit 3333333333333333 10000000000000000) (.var 3)) (.var 4)))),
  .mul (.mul (.lit 1026979795322186 1000000000000000) (.coef 44)) (.xor (.mul (.var 4) (.var 1)) (.sub (.lit 2 1) (.mul (.lit 3333333333333333 10000000000000000) (.var 4)))),
  .mul (.mul (.mul (.mul (.lit 1988737822087164 1000000000000000) (.coef 95)) (.pos (.lit 1026979795322186 1000000000000000))) (.coef 38)) (.xor (.mul (.var 3) (.var 1)) (.sub (.lit 2 1) (.mul (.lit 3333333333333333 10000000000000000) (.var 3)))),
  .mul (.mul (.lit 592927061281571 1000000000000000) (.coef 17)) (.xor (.var 1) (.sub (.lit 2 1) (.lit 3333333333333333 10000000000000000))),
  .mul (.mul (.lit 1205608232776094 100000000000000) (.coef 334)) (.xor (.add (.mul (.neg (.lit 8571428571428571 10000000000000000)) (.xor (.mul (.mul (.var 3) (.var 4)) (.var 0)) (.sub (.mul (.lit 2 1) (.var 1)) (.mul (.mul (.mul (.lit 3333333333333333 10000000000000000) (.var 3)) (.var 4)) (.var 1))))) (.mul (.mul (.var 3) (.var 4)) (.var 0))) (.sub (.mul (.lit 4 1) (.var 1)) (.mul (.mul (.mul (.lit 2 10) (.var 3)) (.var 4)) (.var 1)))),
  .mul (.mul (.mul (.mul (.lit 5966213466261491 1000000000000000) (.coef 244)) (.pos (.lit 6960582377305072 1000000000000000))) (.coef 294)) (.xor (.add (.mul (.neg (.lit 8571428571428571 10000000000000000)) (.xor (.mul (.var 4) (.var 0)) (.sub (.mul (.lit 2 1) (.var 1)) (.mul (.mul (.lit 3333333333333333 10000000000000000) (.var 4)) (.var 1))))) (.mul (.var 4) (.var 0))) (.sub (.mul (.lit 4 1) (.var 1)) (.mul (.mul (.lit 2 10) (.var 4)) (.var 1)))),
  .mul (.mul (.mul (.mul (.lit 5966213466261491 1000000000000000) (.coef 253)) (.pos (.lit 6960582377305072 1000000000000000))) (.coef 285)) (.xor (.add (.mul (.neg (.lit 8571428571428571 10000000000000000)) (.xor (.mul (.var 3) (.var 0)) (.sub (.mul (.lit 2 1) (.var 1)) (.mul (.mul (.lit 3333333333333333 10000000000000000) (.var 3)) (.var 1))))) (.mul (.var 3) (.var 0))) (.sub (.mul (.lit 4 1) (.var 1)) (.mul (.mul (.lit 2 10) (.var 3)) (.var 1)))),
  .mul (.mul (.mul (.mul (.mul (.mul (.lit 3444594950788841 1000000000000000) (.coef 165)) (.pos (.lit 3444594950788841 1000000000000000))) (.coef 153)) (.pos (.lit 4018694109253648 1000000000000000))) (.coef 207)) (.xor (.add (.mul (.neg (.lit 8571428571428571 10000000000000000)) (.xor (.var 0) (.sub (.mul (.lit 2 1) (.var 1)) (.mul (.lit 3333333333333333 10000000000000000) (.var 1))))) (.var 0)) (.sub (.mul (.lit 4 1) (.var 1)) (.mul (.lit 2 10) (.var 1)))),
  .mul (.mul (.lit 1205608232776094 100000000000000) (.coef 344)) (.xor (.add (.mul (.neg (.lit 8571428571428571 10000000000000000)) (.xor (.mul (.var 3) (.var 4)) (.sub (.mul (.mul (.lit 2 1) (.var 0)) (.var 1)) (.mul (.mul (.mul (.lit 3333333333333333 10000000000000000) (.var 3)) (.var 0)) (.var 1))))) (.mul (.var 3) (.var 4))) (.sub (.mul (.mul (.lit 4 1) (.var 0)) (.var 1)) (.mul (.mul (.mul (.lit 2 10) (.var 3)) (.var 0)) (.var 1)))),
  .mul (.mul (.mul (.mul (.lit 5966213466261491 1000000000000000) (.coef 259)) (.pos (.lit 6960582377305072 1000000000000000))) (.coef 306)) (.xor (.add (.mul (.neg (.lit 8571428571428571 10000000000000000)) (.xor (.var 4) (.sub (.mul (.mul (.lit 2 1) (.var 0)) (.var 1)) (.mul (.mul (.lit 3333333333333333 10000000000000000) (.var 0)) (.var 1))))) (.var 4)) (.sub (.mul (.mul (.lit 4 1) (.var 0)) (.var 1)) (.mul (.mul (.lit 2 10) (.var 0)) (.var 1)))),
  .mul (.mul (.lit 1205608232776094 100000000000000) (.coef 340)) (.xor (.add (.mul (.neg (.lit 8571428571428571 10000000000000000)) (.xor (.var 3) (.sub (.mul (.mul (.mul (.lit 2 1) (.var 4)) (.var 0)) (.var 1)) (.mul (.mul (.mul (.lit 3333333333333333 10000000000000000) (.var 4)) (.var 0)) (.var 1))))) (.var 3)) (.sub (.mul (.mul (.mul (.lit 4 1) (.var 4)) (.var 0)) (.var 1)) (.mul (.mul (.mul (.lit 2 10) (.var 4)) (.var 0)) (.var 1)))),
  .mul (.mul (.lit 6960582377305072 1000000000000000) (.coef 291)) (.xor (.add (.mul (.neg (.lit 8571428571428571 10000000000000000)) (.xor (.var 3) (.sub (.mul (.mul (.lit 2 1) (.var 0)) (.var 1)) (.mul (.mul (.lit 3333333333333333 10000000000000000) (.var 0)) (.var 1))))) (.var 3)) (.sub (.mul (.mul (.lit 4 1) (.var 0)) (.var 1)) (.mul (.mul (.lit 2 10) (.var 0)) (.var 1)))),
  .mul (.mul (.lit 6960582377305072 1000000000000000) (.coef 310)) (.xor (.add (.mul (.neg (.lit 8571428571428571 10000000000000000)) (.xor (.mul (.var 3) (.var 4)) (.sub (.mul (.lit 2 1) (.var 1)) (.mul (.mul (.lit 3333333333333333 10000000000000000) (.var 3)) (.var 1))))) (.mul (.var 3) (.var 4))) (.sub (.mul (.lit 4 1) (.var 1)) (.mul (.mul (.lit 2 10) (.var 3)) (.var 1)))),
  .mul (.mul (.mul (.mul (.lit 3444594950788841 1000000000000000) (.coef 175)) (.pos (.lit 4018694109253648 1000000000000000))) (.coef 224)) (.xor (.add (.mul (.neg (.lit 8571428571428571 10000000000000000)) (.xor (.var 4) (.sub (.mul (.lit 2 1) (.var 1)) (.mul (.lit 3333333333333333 10000000000000000) (.var 1))))) (.var 4)) (.sub (.mul (.lit 4 1) (.var 1)) (.mul (.lit 2 10) (.var 1)))),
  .mul (.mul (.lit 6960582377305072 1000000000000000) (.coef 304)) (.xor (.add (.mul (.neg (.lit 8571428571428571 10000000000000000)) (.xor (.var 3) (.sub (.mul (.mul (.lit 2 1) (.var 4)) (.var 1)) (.mul (.mul (.lit 3333333333333333 10000000000000000) (.var 4)) (.var 1))))) (.var 3)) (.sub (.mul (.mul (.lit 4 1) (.var 4)) (.var 1)) (.mul (.mul (.lit 2 10) (.var 4)) (.var 1)))),
  .mul (.mul (.lit 4018694109253648 1000000000000000) (.coef 217)) (.xor (.add (.mul (.neg (.lit 8571428571428571 10000000000000000)) (.xor (.var 3) (.sub (.mul (.lit 2 1) (.var 1)) (.mul (.lit 3333333333333333 10000000000000000) (.var 1))))) (.var 3)) (.sub (.mul (.lit 4 1) (.var 1)) (.mul (.lit 2 10) (.var 1)))),
  .mul (.mul (.lit 6075694404757366 1000000000000000) (.coef 269)) (.xor (.mul (.mul (.var 3) (.var 4)) (.var 0)) (.sub (.mul (.lit 3 1) (.var 1)) (.mul (.mul (.mul (.mul (.lit 6 10) (.var 3)) (.var 4)) (.var 0)) (.var 1)))),
  .mul (.mul (.lit 3507803800100568 1000000000000000) (.coef 189)) (.xor (.mul (.var 4) (.var 0)) (.sub (.mul (.lit 3 1) (.var 1)) (.mul (.mul (.mul (.lit 6 10) (.var 4)) (.var 0)) (.var 1)))),
  .mul (.mul (.lit 3507803800100568 1000000000000000) (.coef 180)) (.xor (.mul (.var 3) (.var 0)) (.sub (.mul (.lit 3 1) (.var 1)) (.mul (.mul (.mul (.lit 6 10) (.var 3)) (.var 0)) (.var 1)))),
  .mul (.mul (.lit 2025231468252455 1000000000000000) (.coef 101)) (.xor (.var 0) (.sub (.mul (.lit 3 1) (.var 1)) (.mul (.mul (.lit 6 10) (.var 0)) (.var 1)))),
  .mul (.mul (.lit 3080939385966558 1000000000000000) (.coef 134)) (.xor (.mul (.mul (.var 3) (.var 4)) (.var 0)) (.sub (.mul (.lit 2 1) (.var 1)) (.mul (.mul (.mul (.lit 3333333333333333 10000000000000000) (.var 3)) (.var 4)) (.var 1)))),
  .mul (.mul (.lit 1778781183844713 1000000000000000) (.coef 73)) (.xor (.mul (.var 4) (.var 0)) (.sub (.mul (.lit 2 1) (.var 1)) (.mul (.mul (.lit 3333333333333333 10000000000000000) (.var 4)) (.var 1)))),
  .mul (.mul (.lit 1778781183844713 1000000000000000) (.coef 64)) (.xor (.mul (.var 3) (.var 0)) (.sub (.mul (.lit 2 1) (.var 1)) (.mul (.mul (.lit 3333333333333333 10000000000000000) (.var 3)) (.var 1)))),
  .mul (.mul (.lit 1026979795322186 1000000000000000) (.coef 31)) (.xor (.var 0) (.sub (.mul (.lit 2 1) (.var 1)) (.mul (.lit 3333333333333333 10000000000000000) (.var 1)))),
  .mul (.mul (.lit 6075694404757366 1000000000000000) (.coef 279)) (.xor (.mul (.var 3) (.var 4)) (.sub (.mul (.mul (.lit 3 1) (.var 0)) (.var 1)) (.mul (.mul (.mul (.mul (.lit 6 10) (.var 3)) (.var 4)) (.var 0)) (.var 1)))),
  .mul (.mul (.lit 3507803800100568 1000000000000000) (.coef 201)) (.xor (.var 4) (.sub (.mul (.mul (.lit 3 1) (.var 0)) (.var 1)) (.mul (.mul (.mul (.lit 6 10) (.var 4)) (.var 0)) (.var 1)))),
  .mul (.mul (.lit 3080939385966558 1000000000000000) (.coef 144)) (.xor (.mul (.var 3) (.var 4)) (.sub (.mul (.mul (.lit 2 1) (.var 0)) (.var 1)) (.mul (.mul (.mul (.lit 3333333333333333 10000000000000000) (.var 3)) (.var 0)) (.var 1)))),
  .mul (.mul (.lit 1778781183844713 1000000000000000) (.coef 85)) (.xor (.var 4) (.sub (.mul (.mul (.lit 2 1) (.var 0)) (.var 1)) (.mul (.mul (.lit 3333333333333333 10000000000000000) (.var 0)) (.var 1)))),
  .mul (.mul (.lit 6075694404757366 1000000000000000) (.coef 275)) (.xor (.var 3) (.sub (.mul (.mul (.mul (.lit 3 1) (.var 4)) (.var 0)) (.var 1)) (.mul (.mul (.mul (.mul (.lit 6 10) (.var 3)) (.var 4)) (.var 0)) (.var 1)))),
  .mul (.mul (.lit 3080939385966558 1000000000000000) (.coef 140)) (.xor (.var 3) (.sub (.mul (.mul (.mul (.lit 2 1) (.var 4)) (.var 0)) (.var 1)) (.mul (.mul (.mul (.lit 3333333333333333 10000000000000000) (.var 4)) (.var 0)) (.var 1)))),
  .mul (.mul (.lit 3507803800100568 1000000000000000) (.coef 186)) (.xor (.var 3) (.sub (.mul (.mul (.lit 3 1) (.var 0)) (.var 1)) (.mul (.mul (.mul (.lit 6 10) (.var 3)) (.var 0)) (.var 1)))),
  .mul (.mul (.lit 1778781183844713 1000000000000000) (.coef 70)) (.xor (.var 3) (.sub (.mul (.mul (.lit 2 1) (.var 0)) (.var 1)) (.mul (.mul (.lit 3333333333333333 10000000000000000) (.var 0)) (.var 1)))),
  .mul (.mul (.lit 3507803800100568 1000000000000000) (.coef 205)) (.xor (.mul (.var 3) (.var 4)) (.sub (.mul (.lit 3 1) (.var 1)) (.mul (.mul (.mul (.lit 6 10) (.var 3)) (.var 4)) (.var 1)))),
  .mul (.mul (.lit 2025231468252455 1000000000000000) (.coef 118)) (.xor (.var 4) (.sub (.mul (.lit 3 1) (.var 1)) (.mul (.mul (.lit 6 10) (.var 4)) (.var 1)))),
  .mul (.mul (.lit 1778781183844713 1000000000000000) (.coef 89)) (.xor (.mul (.var 3) (.var 4)) (.sub (.mul (.lit 2 1) (.var 1)) (.mul (.mul (.lit 3333333333333333 10000000000000000) (.var 3)) (.var 1)))),
  .mul (.mul (.lit 1026979795322186 1000000000000000) (.coef 48)) (.xor (.var 4) (.sub (.mul (.lit 2 1) (.var 1)) (.mul (.lit 3333333333333333 10000000000000000) (.var 1)))),
  .mul (.mul (.lit 3507803800100568 1000000000000000) (.coef 199)) (.xor (.var 3) (.sub (.mul (.mul (.lit 3 1) (.var 4)) (.var 1)) (.mul (.mul (.mul (.lit 6 10) (.var 3)) (.var 4)) (.var 1)))),
  .mul (.mul (.lit 1778781183844713 1000000000000000) (.coef 83)) (.xor (.var 3) (.sub (.mul (.mul (.lit 2 1) (.var 4)) (.var 1)) (.mul (.mul (.lit 3333333333333333 10000000000000000) (.var 4)) (.var 1)))),
  .mul (.mul (.lit 2025231468252455 1000000000000000) (.coef 111)) (.xor (.var 3) (.sub (.mul (.lit 3 1) (.var 1)) (.mul (.mul (.lit 6 10) (.var 3)) (.var 1)))),
  .mul (.mul (.lit 1026979795322186 1000000000000000) (.coef 41)) (.xor (.var 3) (.sub (.mul (.lit 2 1) (.var 1)) (.mul (.lit 3333333333333333 10000000000000000) (.var 1)))),
  .mul (.mul (.mul (.mul (.mul (.lit 1590990257669731 1000000000000000) (.coef 58)) (.var 3)) (.var 4)) (.var 0)) (.var 1),
  .mul (.mul (.mul (.mul (.lit 9185586535436913 10000000000000000) (.coef 25)) (.var 4)) (.var 0)) (.var 1),
  .mul (.mul (.mul (.mul (.lit 9185586535436913 10000000000000000) (.coef 22)) (.var 3)) (.var 0)) (.var 1),
  .mul (.mul (.mul (.lit 5303300858899105 10000000000000000) (.coef 6)) (.var 0)) (.var 1),
  .mul (.mul (.mul (.mul (.lit 9185586535436913 10000000000000000) (.coef 29)) (.var 3)) (.var 4)) (.var 1),
  .mul (.mul (.mul (.lit 5303300858899105 10000000000000000) (.coef 13)) (.var 4)) (.var 1),
  .mul (.mul (.mul (.lit 5303300858899105 10000000000000000) (.coef 10)) (.var 3)) (.var 1),
  .mul (.mul (.lit 3061862178478971 10000000000000000) (.coef 2)) (.var 1),
  .mul (.mul (.lit 6960582377305072 1000000000000000) (.coef 300)) (.xor (.mul (.mul (.var 3) (.var 4)) (.var 0)) (.sub (.sub (.lit 4 1) (.mul (.lit 8571428571428571 10000000000000000) (.xor (.mul (.mul (.var 3) (.var 4)) (.var 0)) (.sub (.lit 2 1) (.mul (.mul (.lit 3333333333333333 10000000000000000) (.var 3)) (.var 4)))))) (.mul (.mul (.lit 2 10) (.var 3)) (.var 4)))),
  .mul (.mul (.lit 4018694109253648 1000000000000000) (.coef 219)) (.xor (.mul (.var 4) (.var 0)) (.sub (.sub (.lit 4 1) (.mul (.lit 8571428571428571 10000000000000000) (.xor (.mul (.var 4) (.var 0)) (.sub (.lit 2 1) (.mul (.lit 3333333333333333 10000000000000000) (.var 4)))))) (.mul (.lit 2 10) (.var 4)))),
  .mul (.mul (.lit 4018694109253648 1000000000000000) (.coef 213)) (.xor (.mul (.var 3) (.var 0)) (.sub (.sub (.lit 4 1) (.mul (.lit 8571428571428571 10000000000000000) (.xor (.mul (.var 3) (.var 0)) (.sub (.lit 2 1) (.mul (.lit 3333333333333333 10000000000000000) (.var 3)))))) (.mul (.lit 2 10) (.var 3)))),
  .mul (.mul (.lit 2320194125768357 1000000000000000) (.coef 121)) (.xor (.var 0) (.sub (.sub (.lit 4 1) (.mul (.lit 8571428571428571 10000000000000000) (.xor (.var 0) (.sub (.lit 2 1) (.lit 3333333333333333 10000000000000000))))) (.lit 2 10))),
  .mul (.mul (.lit 3507803800100568 1000000000000000) (.coef 195)) (.xor (.mul (.mul (.var 3) (.var 4)) (.var 0)) (.sub (.lit 3 1) (.mul (.mul (.mul (.lit 6 10) (.var 3)) (.var 4)) (.var 0)))),
  .mul (.mul (.lit 2025231468252455 1000000000000000) (.coef 113)) (.xor (.mul (.var 4) (.var 0)) (.sub (.lit 3 1) (.mul (.mul (.lit 6 10) (.var 4)) (.var 0)))),
  .mul (.mul (.lit 2025231468252455 1000000000000000) (.coef 107)) (.xor (.mul (.var 3) (.var 0)) (.sub (.lit 3 1) (.mul (.mul (.lit 6 10) (.var 3)) (.var 0)))),
  .mul (.mul (.lit 1169267933366856 1000000000000000) (.coef 51)) (.xor (.var 0) (.sub (.lit 3 1) (.mul (.lit 6 10) (.var 0)))),
  .mul (.mul (.mul (.mul (.mul (.mul (.mul (.mul (.lit 3444594950788841 1000000000000000) (.coef 162)) (.pos (.lit 3444594950788841 1000000000000000))) (.coef 171)) (.pos (.lit 1988737822087164 1000000000000000))) (.coef 97)) (.pos (.lit 1778781183844713 1000000000000000))) (.coef 79)) (.xor (.mul (.mul (.var 3) (.var 4)) (.var 0)) (.sub (.lit 2 1) (.mul (.mul (.lit 3333333333333333 10000000000000000) (.var 3)) (.var 4)))),
  .mul (.mul (.lit 1026979795322186 1000000000000000) (.coef 43)) (.xor (.mul (.var 4) (.var 0)) (.sub (.lit 2 1) (.mul (.lit 3333333333333333 10000000000000000) (.var 4)))),
  .mul (.mul (.mul (.mul (.lit 1988737822087164 1000000000000000) (.coef 94)) (.pos (.lit 1026979795322186 1000000000000000))) (.coef 37)) (.xor (.mul (.var 3) (.var 0)) (.sub (.lit 2 1) (.mul (.lit 3333333333333333 10000000000000000) (.var 3)))),
  .mul (.mul (.lit 592927061281571 1000000000000000) (.coef 16)) (.xor (.var 0) (.sub (.lit 2 1) (.lit 3333333333333333 10000000000000000))),
  .mul (.mul (.lit 6960582377305072 1000000000000000) (.coef 309)) (.xor (.add (.mul (.neg (.lit 8571428571428571 10000000000000000)) (.xor (.mul (.var 3) (.var 4)) (.sub (.mul (.lit 2 1) (.var 0)) (.mul (.mul (.lit 3333333333333333 10000000000000000) (.var 3)) (.var 0))))) (.mul (.var 3) (.var 4))) (.sub (.mul (.lit 4 1) (.var 0)) (.mul (.mul (.lit 2 10) (.var 3)) (.var 0)))),
  .mul (.mul (.mul (.mul (.lit 3444594950788841 1000000000000000) (.coef 174)) (.pos (.lit 4018694109253648 1000000000000000))) (.coef 223)) (.xor (.add (.mul (.neg (.lit 8571428571428571 10000000000000000)) (.xor (.var 4) (.sub (.mul (.lit 2 1) (.var 0)) (.mul (.lit 3333333333333333 10000000000000000) (.var 0))))) (.var 4)) (.sub (.mul (.lit 4 1) (.var 0)) (.mul (.lit 2 10) (.var 0)))),
  .mul (.mul (.lit 6960582377305072 1000000000000000) (.coef 303)) (.xor (.add (.mul (.neg (.lit 8571428571428571 10000000000000000)) (.xor (.var 3) (.sub (.mul (.mul (.lit 2 1) (.var 4)) (.var 0)) (.mul (.mul (.lit 3333333333333333 10000000000000000) (.var 4)) (.var 0))))) (.var 3)) (.sub (.mul (.mul (.lit 4 1) (.var 4)) (.var 0)) (.mul (.mul (.lit 2 10) (.var 4)) (.var 0)))),
  .mul (.mul (.lit 4018694109253648 1000000000000000) (.coef 216)) (.xor (.add (.mul (.neg (.lit 8571428571428571 10000000000000000)) (.xor (.var 3) (.sub (.mul (.lit 2 1) (.var 0)) (.mul (.lit 3333333333333333 10000000000000000) (.var 0))))) (.var 3)) (.sub (.mul (.lit 4 1) (.var 0)) (.mul (.lit 2 10) (.var 0)))),
  .mul (.mul (.lit 3507803800100568 1000000000000000) (.coef 204)) (.xor (.mul (.var 3) (.var 4)) (.sub (.mul (.lit 3 1) (.var 0)) (.mul (.mul (.mul (.lit 6 10) (.var 3)) (.var 4)) (.var 0)))),
  .mul (.mul (.lit 2025231468252455 1000000000000000) (.coef 117)) (.xor (.var 4) (.sub (.mul (.lit 3 1) (.var 0)) (.mul (.mul (.lit 6 10) (.var 4)) (.var 0)))),
  .mul (.mul (.lit 1778781183844713 1000000000000000) (.coef 88)) (.xor (.mul (.var 3) (.var 4)) (.sub (.mul (.lit 2 1) (.var 0)) (.mul (.mul (.lit 3333333333333333 10000000000000000) (.var 3)) (.var 0)))),
  .mul (.mul (.lit 1026979795322186 1000000000000000) (.coef 47)) (.xor (.var 4) (.sub (.mul (.lit 2 1) (.var 0)) (.mul (.lit 3333333333333333 10000000000000000) (.var 0)))),
  .mul (.mul (.lit 3507803800100568 1000000000000000) (.coef 198)) (.xor (.var 3) (.sub (.mul (.mul (.lit 3 1) (.var 4)) (.var 0)) (.mul (.mul (.mul (.lit 6 10) (.var 3)) (.var 4)) (.var 0)))),
  .mul (.mul (.lit 1778781183844713 1000000000000000) (.coef 82)) (.xor (.var 3) (.sub (.mul (.mul (.lit 2 1) (.var 4)) (.var 0)) (.mul (.mul (.lit 3333333333333333 10000000000000000) (.var 4)) (.var 0)))),
  .mul (.mul (.lit 2025231468252455 1000000000000000) (.coef 110)) (.xor (.var 3) (.sub (.mul (.lit 3 1) (.var 0)) (.mul (.mul (.lit 6 10) (.var 3)) (.var 0)))),
  .mul (.mul (.lit 1026979795322186 1000000000000000) (.coef 40)) (.xor (.var 3) (.sub (.mul (.lit 2 1) (.var 0)) (.mul (.lit 3333333333333333 10000000000000000) (.var 0)))),
  .mul (.mul (.mul (.mul (.lit 9185586535436913 10000000000000000) (.coef 28)) (.var 3)) (.var 4)) (.var 0),
  .mul (.mul (.mul (.lit 5303300858899105 10000000000000000) (.coef 12)) (.var 4)) (.var 0),
  .mul (.mul (.mul (.lit 5303300858899105 10000000000000000) (.coef 9)) (.var 3)) (.var 0),
  .mul (.mul (.lit 3061862178478971 10000000000000000) (.coef 1)) (.var 0),
  .mul (.mul (.lit 4018694109253648 1000000000000000) (.coef 226)) (.xor (.mul (.var 3) (.var 4)) (.sub (.sub (.lit 4 1) (.mul (.lit 8571428571428571 10000000000000000) (.xor (.mul (.var 3) (.var 4)) (.sub (.lit 2 1) (.mul (.lit 3333333333333333 10000000000000000) (.var 3)))))) (.mul (.lit 2 10) (.var 3)))),
  .mul (.mul (.lit 2320194125768357 1000000000000000) (.coef 125)) (.xor (.var 4) (.sub (.sub (.lit 4 1) (.mul (.lit 8571428571428571 10000000000000000) (.xor (.var 4) (.sub (.lit 2 1) (.lit 3333333333333333 10000000000000000))))) (.lit 2 10))),
  .mul (.mul (.lit 2025231468252455 1000000000000000) (.coef 120)) (.xor (.mul (.var 3) (.var 4)) (.sub (.lit 3 1) (.mul (.mul (.lit 6 10) (.var 3)) (.var 4)))),
  .mul (.mul (.lit 1169267933366856 1000000000000000) (.coef 55)) (.xor (.var 4) (.sub (.lit 3 1) (.mul (.lit 6 10) (.var 4)))),
  .mul (.mul (.mul (.mul (.lit 1988737822087164 1000000000000000) (.coef 100)) (.pos (.lit 1026979795322186 1000000000000000))) (.coef 50)) (.xor (.mul (.var 3) (.var 4)) (.sub (.lit 2 1) (.mul (.lit 3333333333333333 10000000000000000) (.var 3)))),
  .mul (.mul (.lit 592927061281571 1000000000000000) (.coef 20)) (.xor (.var 4) (.sub (.lit 2 1) (.lit 3333333333333333 10000000000000000))),
  .mul (.mul (.lit 4018694109253648 1000000000000000) (.coef 222)) (.xor (.add (.mul (.neg (.lit 8571428571428571 10000000000000000)) (.xor (.var 3) (.sub (.mul (.lit 2 1) (.var 4)) (.mul (.lit 3333333333333333 10000000000000000) (.var 4))))) (.var 3)) (.sub (.mul (.lit 4 1) (.var 4)) (.mul (.lit 2 10) (.var 4)))),
  .mul (.mul (.lit 2025231468252455 1000000000000000) (.coef 116)) (.xor (.var 3) (.sub (.mul (.lit 3 1) (.var 4)) (.mul (.mul (.lit 6 10) (.var 3)) (.var 4)))),
  .mul (.mul (.lit 1026979795322186 1000000000000000) (.coef 46)) (.xor (.var 3) (.sub (.mul (.lit 2 1) (.var 4)) (.mul (.lit 3333333333333333 10000000000000000) (.var 4)))),
  .mul (.mul (.mul (.lit 5303300858899105 10000000000000000) (.coef 15)) (.var 3)) (.var 4),
  .mul (.mul (.lit 3061862178478971 10000000000000000) (.coef 5)) (.var 4),
  .mul (.mul (.lit 2320194125768357 1000000000000000) (.coef 124)) (.xor (.var 3) (.sub (.sub (.lit 4 1) (.mul (.lit 8571428571428571 10000000000000000) (.xor (.var 3) (.sub (.lit 2 1) (.lit 3333333333333333 10000000000000000))))) (.lit 2 10))),
  .mul (.mul (.lit 1169267933366856 1000000000000000) (.coef 54)) (.xor (.var 3) (.sub (.lit 3 1) (.mul (.lit 6 10) (.var 3)))),
  .mul (.mul (.lit 592927061281571 1000000000000000) (.coef 19)) (.xor (.var 3) (.sub (.lit 2 1) (.lit 3333333333333333 10000000000000000))),
  .mul (.mul (.lit 3061862178478971 10000000000000000) (.coef 4)) (.var 3),
  .mul (.lit 1767766952966368 10000000000000000) (.coef 0)]

/-- expand5d.py:1412: `expand_5d`. -/
def expand_5d : List (Option (List Expr)) := [expand5d1p, expand5d2p, expand5d3p, expand5d4p]

/-- expand6d.py:1-67, arguments f, x, y, z, vx, vy, vz. -/
def expand6d1p : Option (List Expr) := some [
  .mul (.mul (.mul (.mul (.mul (.mul (.mul (.lit 3375 1000) (.coef 63)) (.var 3)) (.var 4)) (.var 5)) (.var 0)) (.var 1)) (.var 2),
  .mul (.mul (.mul (.mul (.mul (.mul (.lit 1948557158514986 1000000000000000) (.coef 59)) (.var 4)) (.var 5)) (.var 0)) (.var 1)) (.var 2),
  .mul (.mul (.mul (.mul (.mul (.mul (.lit 1948557158514986 1000000000000000) (.coef 58)) (.var 3)) (.var 5)) (.var 0)) (.var 1)) (.var 2),
  .mul (.mul (.mul (.mul (.mul (.lit 1125 1000) (.coef 47)) (.var 5)) (.var 0)) (.var 1)) (.var 2),
  .mul (.mul (.mul (.mul (.mul (.mul (.lit 1948557158514986 1000000000000000) (.coef 57)) (.var 3)) (.var 4)) (.var 0)) (.var 1)) (.var 2),
  .mul (.mul (.mul (.mul (.mul (.lit 1125 1000) (.coef 43)) (.var 4)) (.var 0)) (.var 1)) (.var 2),
  .mul (.mul (.mul (.mul (.mul (.lit 1125 1000) (.coef 42)) (.var 3)) (.var 0)) (.var 1)) (.var 2),
  .mul (.mul (.mul (.mul (.lit 6495190528383289 10000000000000000) (.coef 22)) (.var 0)) (.var 1)) (.var 2),
  .mul (.mul (.mul (.mul (.mul (.mul (.lit 1948557158514986 1000000000000000) (.coef 62)) (.var 3)) (.var 4)) (.var 5)) (.var 1)) (.var 2),
  .mul (.mul (.mul (.mul (.mul (.lit 1125 1000) (.coef 53)) (.var 4)) (.var 5)) (.var 1)) (.var 2),
  .mul (.mul (.mul (.mul (.mul (.lit 1125 1000) (.coef 50)) (.var 3)) (.var 5)) (.var 1)) (.var 2),
  .mul (.mul (.mul (.mul (.lit 6495190528383289 10000000000000000) (.coef 34)) (.var 5)) (.var 1)) (.var 2),
  .mul (.mul (.mul (.mul (.mul (.lit 1125 1000) (.coef 46)) (.var 3)) (.var 4)) (.var 1)) (.var 2),
  .mul (.mul (.mul (.mul (.lit 6495190528383289 10000000000000000) (.coef 28)) (.var 4)) (.var 1)) (.var 2),
  .mul (.mul (.mul (.mul (.lit 6495190528383289 10000000000000000) (.coef 25)) (.var 3)) (.var 1)) (.var 2),
  .mul (.mul (.mul (.lit 375 1000) (.coef 9)) (.var 1)) (.var 2),
  .mul (.mul (.mul (.mul (.mul (.mul (.lit 1948557158514986 1000000000000000) (.coef 61)) (.var 3)) (.var 4)) (.var 5)) (.var 0)) (.var 2),
  .mul (.mul (.mul (.mul (.mul (.lit 1125 1000) (.coef 52)) (.var 4)) (.var 5)) (.var 0)) (.var 2),
  .mul (.mul (.mul (.mul (.mul (.lit 1125 1000) (.coef 49)) (.var 3)) (.var 5)) (.var 0)) (.var 2),
  .mul (.mul (.mul (.mul (.lit 6495190528383289 10000000000000000) (.coef 33)) (.var 5)) (.var 0)) (.var 2),
  .mul (.mul (.mul (.mul (.mul (.lit 1125 1000) (.coef 45)) (.var 3)) (.var 4)) (.var 0)) (.var 2),
  .mul (.mul (.mul (.mul (.lit 6495190528383289 10000000000000000) (.coef 27)) (.var 4)) (.var 0)) (.var 2),
  .mul (.mul (.mul (.mul (.lit 6495190528383289 10000000000000000) (.coef 24)) (.var 3)) (.var 0)) (.var 2),
  .mul (.mul (.mul (.lit 375 1000) (.coef 8)) (.var 0)) (.var 2),
  .mul (.mul (.mul (.mul (.mul (.lit 1125 1000) (.coef 56)) (.var 3)) (.var 4)) (.var 5)) (.var 2),
  .mul (.mul (.mul (.mul (.lit 6495190528383289 10000000000000000) (.coef 40)) (.var 4)) (.var 5)) (.var 2),
  .mul (.mul (.mul (.mul (.lit 6495190528383289 10000000000000000) (.coef 37)) (.var 3)) (.var 5)) (.var 2),
  .mul (.mul (.mul (.lit 375 1000) (.coef 19)) (.var 5)) (.var 2),
  .mul (.mul (.mul (.mul (.lit 6495190528383289 10000000000000000) (.coef 31)) (.var 3)) (.var 4)) (.var 2),
  .mul (.mul (.mul (.lit 375 1000) (.coef 15)) (.var 4)) (.var 2),
  .mul (.mul (.mul (.lit 375 1000) (.coef 12)) (.var 3)) (.var 2),
  .mul (.mul (.lit 2165063509461096 10000000000000000) (.coef 3)) (.var 2),
  .mul (.mul (.mul (.mul (.mul (.mul (.lit 1948557158514986 1000000000000000) (.coef 60)) (.var 3)) (.var 4)) (.var 5)) (.var 0)) (.var 1),
  .mul (.mul (.mul (.mul (.mul (.lit 1125 1000) (.coef 51)) (.var 4)) (.var 5)) (.var 0)) (.var 1),
  .mul (.mul (.mul (.mul (.mul (.lit 1125 1000) (.coef 48)) (.var 3)) (.var 5)) (.var 0)) (.var 1),
  .mul (.mul (.mul (.mul (.lit 6495190528383289 10000000000000000) (.coef 32)) (.var 5)) (.var 0)) (.var 1),
  .mul (.mul (.mul (.mul (.mul (.lit 1125 1000) (.coef 44)) (.var 3)) (.var 4)) (.var 0)) (.var 1),
  .mul (.mul (.mul (.mul (.lit 6495190528383289 10000000000000000) (.coef 26)) (.var 4)) (.var 0)) (.var 1),
  .mul (.mul (.mul (.mul (.lit 6495190528383289 10000000000000000) (.coef 23)) (.var 3)) (.var 0)) (.var 1),
  .mul (.mul (.mul (.lit 375 1000) (.coef 7)) (.var 0)) (.var 1),
  .mul (.mul (.mul (.mul (.mul (.lit 1125 1000) (.coef 55)) (.var 3)) (.var 4)) (.var 5)) (.var 1),
  .mul (.mul (.mul (.mul (.lit 6495190528383289 10000000000000000) (.coef 39)) (.var 4)) (.var 5)) (.var 1),
  .mul (.mul (.mul (.mul (.lit 6495190528383289 10000000000000000) (.coef 36)) (.var 3)) (.var 5)) (.var 1),
  .mul (.mul (.mul (.lit 375 1000) (.coef 18)) (.var 5)) (.var 1),
  .mul (.mul (.mul (.mul (.lit 6495190528383289 10000000000000000) (.coef 30)) (.var 3)) (.var 4)) (.var 1),
  .mul (.mul (.mul (.lit 375 1000) (.coef 14)) (.var 4)) (.var 1),
  .mul (.mul (.mul (.lit 375 1000) (.coef 11)) (.var 3)) (.var 1),
  .mul (.mul (.lit 2165063509461096 10000000000000000) (.coef 2)) (.var 1),
  .mul (.mul (.mul (.mul (.mul (.lit 1125 1000) (.coef 54)) (.var 3)) (.var 4)) (.var 5)) (.var 0),
  .mul (.mul (.mul (.mul (.lit 6495190528383289 10000000000000000) (.coef 38)) (.var 4)) (.var 5)) (.var 0),
  .mul (.mul (.mul (.mul (.lit 6495190528383289 10000000000000000) (.coef 35)) (.var 3)) (.var 5)) (.var 0),
  .mul (.mul (.mul (.lit 375 1000) (.coef 17)) (.var 5)) (.var 0),
  .mul (.mul (.mul (.mul (.lit 6495190528383289 10000000000000000) (.coef 29)) (.var 3)) (.var 4)) (.var 0),
  .mul (.mul (.mul (.lit 375 1000) (.coef 13)) (.var 4)) (.var 0),
  .mul (.mul (.mul (.lit 375 1000) (.coef 10)) (.var 3)) (.var 0),
  .mul (.mul (.lit 2165063509461096 10000000000000000) (.coef 1)) (.var 0),
  .mul (.mul (.mul (.mul (.lit 6495190528383289 10000000000000000) (.coef 41)) (.var 3)) (.var 4)) (.var 5),
  .mul (.mul (.mul (.lit 375 1000) (.coef 21)) (.var 4)) (.var 5),
  .mul (.mul (.mul (.lit 375 1000) (.coef 20)) (.var 3)) (.var 5),
  .mul (.mul (.lit 2165063509461096 10000000000000000) (.coef 6)) (.var 5),
  .mul (.mul (.mul (.lit 375 1000) (.coef 16)) (.var 3)) (.var 4),
  .mul (.mul (.lit 2165063509461096 10000000000000000) (.coef 5)) (.var 4),
  .mul (.mul (.lit 2165063509461096 10000000000000000) (.coef 4)) (.var 3),
  .mul (.lit 125 1000) (.coef 0)]

/-- expand6d.py:73-583, arguments f, x, y, z, vx, vy, vz. -/
def expand6d2p : Option (List Expr) := some [
  .mul (.mul (.lit 6535659396725016 1000000000000000) (.coef 252)) (.xor (.mul (.mul (.mul (.mul (.mul (.var 3) (.var 4)) (.var 5)) (.var 0)) (.var 1)) (.var 2)) (.sub (.lit 2 1) (.mul (.mul (.mul (.mul (.mul (.lit 3333333333333333 10000000000000000) (.var 3)) (.var 4)) (.var 5)) (.var 0)) (.var 1)))),
  .mul (.mul (.lit 3773364712030896 1000000000000000) (.coef 231)) (.xor (.mul (.mul (.mul (.mul (.var 4) (.var 5)) (.var 0)) (.var 1)) (.var 2)) (.sub (.lit 2 1) (.mul (.mul (.mul (.mul (.lit 3333333333333333 10000000000000000) (.var 4)) (.var 5)) (.var 0)) (.var 1)))),
  .mul (.mul (.lit 3773364712030896 1000000000000000) (.coef 227)) (.xor (.mul (.mul (.mul (.mul (.var 3) (.var 5)) (.var 0)) (.var 1)) (.var 2)) (.sub (.lit 2 1) (.mul (.mul (.mul (.mul (.lit 3333333333333333 10000000000000000) (.var 3)) (.var 5)) (.var 0)) (.var 1)))),
  .mul (.mul (.lit 2178553132241672 1000000000000000) (.coef 181)) (.xor (.mul (.mul (.mul (.var 5) (.var 0)) (.var 1)) (.var 2)) (.sub (.lit 2 1) (.mul (.mul (.mul (.lit 3333333333333333 10000000000000000) (.var 5)) (.var 0)) (.var 1)))),
  .mul (.mul (.lit 3773364712030896 1000000000000000) (.coef 222)) (.xor (.mul (.mul (.mul (.mul (.var 3) (.var 4)) (.var 0)) (.var 1)) (.var 2)) (.sub (.lit 2 1) (.mul (.mul (.mul (.mul (.lit 3333333333333333 10000000000000000) (.var 3)) (.var 4)) (.var 0)) (.var 1)))),
  .mul (.mul (.lit 2178553132241672 1000000000000000) (.coef 165)) (.xor (.mul (.mul (.mul (.var 4) (.var 0)) (.var 1)) (.var 2)) (.sub (.lit 2 1) (.mul (.mul (.mul (.lit 3333333333333333 10000000000000000) (.var 4)) (.var 0)) (.var 1)))),
  .mul (.mul (.lit 2178553132241672 1000000000000000) (.coef 161)) (.xor (.mul (.mul (.mul (.var 3) (.var 0)) (.var 1)) (.var 2)) (.sub (.lit 2 1) (.mul (.mul (.mul (.lit 3333333333333333 10000000000000000) (.var 3)) (.var 0)) (.var 1)))),
  .mul (.mul (.lit 1257788237343632 1000000000000000) (.coef 95)) (.xor (.mul (.mul (.var 0) (.var 1)) (.var 2)) (.sub (.lit 2 1) (.mul (.mul (.lit 3333333333333333 10000000000000000) (.var 0)) (.var 1)))),
  .mul (.mul (.lit 3773364712030896 1000000000000000) (.coef 237)) (.xor (.mul (.mul (.mul (.mul (.var 3) (.var 4)) (.var 5)) (.var 1)) (.var 2)) (.sub (.lit 2 1) (.mul (.mul (.mul (.mul (.lit 3333333333333333 10000000000000000) (.var 3)) (.var 4)) (.var 5)) (.var 1)))),
  .mul (.mul (.lit 2178553132241672 1000000000000000) (.coef 196)) (.xor (.mul (.mul (.mul (.var 4) (.var 5)) (.var 1)) (.var 2)) (.sub (.lit 2 1) (.mul (.mul (.mul (.lit 3333333333333333 10000000000000000) (.var 4)) (.var 5)) (.var 1)))),
  .mul (.mul (.lit 2178553132241672 1000000000000000) (.coef 187)) (.xor (.mul (.mul (.mul (.var 3) (.var 5)) (.var 1)) (.var 2)) (.sub (.lit 2 1) (.mul (.mul (.mul (.lit 3333333333333333 10000000000000000) (.var 3)) (.var 5)) (.var 1)))),
  .mul (.mul (.lit 1257788237343632 1000000000000000) (.coef 128)) (.xor (.mul (.mul (.var 5) (.var 1)) (.var 2)) (.sub (.lit 2 1) (.mul (.mul (.lit 3333333333333333 10000000000000000) (.var 5)) (.var 1)))),
  .mul (.mul (.lit 2178553132241672 1000000000000000) (.coef 171)) (.xor (.mul (.mul (.mul (.var 3) (.var 4)) (.var 1)) (.var 2)) (.sub (.lit 2 1) (.mul (.mul (.mul (.lit 3333333333333333 10000000000000000) (.var 3)) (.var 4)) (.var 1)))),
  .mul (.mul (.lit 1257788237343632 1000000000000000) (.coef 110)) (.xor (.mul (.mul (.var 4) (.var 1)) (.var 2)) (.sub (.lit 2 1) (.mul (.mul (.lit 3333333333333333 10000000000000000) (.var 4)) (.var 1)))),
  .mul (.mul (.lit 1257788237343632 1000000000000000) (.coef 101)) (.xor (.mul (.mul (.var 3) (.var 1)) (.var 2)) (.sub (.lit 2 1) (.mul (.mul (.lit 3333333333333333 10000000000000000) (.var 3)) (.var 1)))),
  .mul (.mul (.lit 7261843774138907 10000000000000000) (.coef 53)) (.xor (.mul (.var 1) (.var 2)) (.sub (.lit 2 1) (.mul (.lit 3333333333333333 10000000000000000) (.var 1)))),
  .mul (.mul (.lit 3773364712030896 1000000000000000) (.coef 236)) (.xor (.mul (.mul (.mul (.mul (.var 3) (.var 4)) (.var 5)) (.var 0)) (.var 2)) (.sub (.lit 2 1) (.mul (.mul (.mul (.mul (.lit 3333333333333333 10000000000000000) (.var 3)) (.var 4)) (.var 5)) (.var 0)))),
  .mul (.mul (.lit 2178553132241672 1000000000000000) (.coef 195)) (.xor (.mul (.mul (.mul (.var 4) (.var 5)) (.var 0)) (.var 2)) (.sub (.lit 2 1) (.mul (.mul (.mul (.lit 3333333333333333 10000000000000000) (.var 4)) (.var 5)) (.var 0)))),
  .mul (.mul (.lit 2178553132241672 1000000000000000) (.coef 186)) (.xor (.mul (.mul (.mul (.var 3) (.var 5)) (.var 0)) (.var 2)) (.sub (.lit 2 1) (.mul (.mul (.mul (.lit 3333333333333333 10000000000000000) (.var 3)) (.var 5)) (.var 0)))),
  .mul (.mul (.lit 1257788237343632 1000000000000000) (.coef 127)) (.xor (.mul (.mul (.var 5) (.var 0)) (.var 2)) (.sub (.lit 2 1) (.mul (.mul (.lit 3333333333333333 10000000000000000) (.var 5)) (.var 0)))),
  .mul (.mul (.lit 2178553132241672 1000000000000000) (.coef 170)) (.xor (.mul (.mul (.mul (.var 3) (.var 4)) (.var 0)) (.var 2)) (.sub (.lit 2 1) (.mul (.mul (.mul (.lit 3333333333333333 10000000000000000) (.var 3)) (.var 4)) (.var 0)))),
  .mul (.mul (.lit 1257788237343632 1000000000000000) (.coef 109)) (.xor (.mul (.mul (.var 4) (.var 0)) (.var 2)) (.sub (.lit 2 1) (.mul (.mul (.lit 3333333333333333 10000000000000000) (.var 4)) (.var 0)))),
  .mul (.mul (.lit 1257788237343632 1000000000000000) (.coef 100)) (.xor (.mul (.mul (.var 3) (.var 0)) (.var 2)) (.sub (.lit 2 1) (.mul (.mul (.lit 3333333333333333 10000000000000000) (.var 3)) (.var 0)))),
  .mul (.mul (.lit 7261843774138907 10000000000000000) (.coef 52)) (.xor (.mul (.var 0) (.var 2)) (.sub (.lit 2 1) (.mul (.lit 3333333333333333 10000000000000000) (.var 0)))),
  .mul (.mul (.lit 2178553132241672 1000000000000000) (.coef 199)) (.xor (.mul (.mul (.mul (.var 3) (.var 4)) (.var 5)) (.var 2)) (.sub (.lit 2 1) (.mul (.mul (.mul (.lit 3333333333333333 10000000000000000) (.var 3)) (.var 4)) (.var 5)))),
  .mul (.mul (.lit 1257788237343632 1000000000000000) (.coef 137)) (.xor (.mul (.mul (.var 4) (.var 5)) (.var 2)) (.sub (.lit 2 1) (.mul (.mul (.lit 3333333333333333 10000000000000000) (.var 4)) (.var 5)))),
  .mul (.mul (.lit 1257788237343632 1000000000000000) (.coef 131)) (.xor (.mul (.mul (.var 3) (.var 5)) (.var 2)) (.sub (.lit 2 1) (.mul (.mul (.lit 3333333333333333 10000000000000000) (.var 3)) (.var 5)))),
  .mul (.mul (.lit 7261843774138907 10000000000000000) (.coef 70)) (.xor (.mul (.var 5) (.var 2)) (.sub (.lit 2 1) (.mul (.lit 3333333333333333 10000000000000000) (.var 5)))),
  .mul (.mul (.lit 1257788237343632 1000000000000000) (.coef 113)) (.xor (.mul (.mul (.var 3) (.var 4)) (.var 2)) (.sub (.lit 2 1) (.mul (.mul (.lit 3333333333333333 10000000000000000) (.var 3)) (.var 4)))),
  .mul (.mul (.lit 7261843774138907 10000000000000000) (.coef 62)) (.xor (.mul (.var 4) (.var 2)) (.sub (.lit 2 1) (.mul (.lit 3333333333333333 10000000000000000) (.var 4)))),
  .mul (.mul (.lit 7261843774138907 10000000000000000) (.coef 56)) (.xor (.mul (.var 3) (.var 2)) (.sub (.lit 2 1) (.mul (.lit 3333333333333333 10000000000000000) (.var 3)))),
  .mul (.mul (.lit 4192627457812106 10000000000000000) (.coef 24)) (.xor (.var 2) (.sub (.lit 2 1) (.lit 3333333333333333 10000000000000000))),
  .mul (.mul (.lit 6535659396725016 1000000000000000) (.coef 251)) (.xor (.mul (.mul (.mul (.mul (.var 3) (.var 4)) (.var 5)) (.var 0)) (.var 1)) (.sub (.mul (.lit 2 1) (.var 2)) (.mul (.mul (.mul (.mul (.mul (.lit 3333333333333333 10000000000000000) (.var 3)) (.var 4)) (.var 5)) (.var 0)) (.var 2)))),
  .mul (.mul (.lit 3773364712030896 1000000000000000) (.coef 230)) (.xor (.mul (.mul (.mul (.var 4) (.var 5)) (.var 0)) (.var 1)) (.sub (.mul (.lit 2 1) (.var 2)) (.mul (.mul (.mul (.mul (.lit 3333333333333333 10000000000000000) (.var 4)) (.var 5)) (.var 0)) (.var 2)))),
  .mul (.mul (.lit 3773364712030896 1000000000000000) (.coef 226)) (.xor (.mul (.mul (.mul (.var 3) (.var 5)) (.var 0)) (.var 1)) (.sub (.mul (.lit 2 1) (.var 2)) (.mul (.mul (.mul (.mul (.lit 3333333333333333 10000000000000000) (.var 3)) (.var 5)) (.var 0)) (.var 2)))),
  .mul (.mul (.lit 2178553132241672 1000000000000000) (.coef 180)) (.xor (.mul (.mul (.var 5) (.var 0)) (.var 1)) (.sub (.mul (.lit 2 1) (.var 2)) (.mul (.mul (.mul (.lit 3333333333333333 10000000000000000) (.var 5)) (.var 0)) (.var 2)))),
  .mul (.mul (.lit 3773364712030896 1000000000000000) (.coef 221)) (.xor (.mul (.mul (.mul (.var 3) (.var 4)) (.var 0)) (.var 1)) (.sub (.mul (.lit 2 1) (.var 2)) (.mul (.mul (.mul (.mul (.lit 3333333333333333 10000000000000000) (.var 3)) (.var 4)) (.var 0)) (.var 2)))),
  .mul (.mul (.lit 2178553132241672 1000000000000000) (.coef 164)) (.xor (.mul (.mul (.var 4) (.var 0)) (.var 1)) (.sub (.mul (.lit 2 1) (.var 2)) (.mul (.mul (.mul (.lit 3333333333333333 10000000000000000) (.var 4)) (.var 0)) (.var 2)))),
  .mul (.mul (.lit 2178553132241672 1000000000000000) (.coef 160)) (.xor (.mul (.mul (.var 3) (.var 0)) (.var 1)) (.sub (.mul (.lit 2 1) (.var 2)) (.mul (.mul (.mul (.lit 3333333333333333 10000000000000000) (.var 3)) (.var 0)) (.var 2)))),
  .mul (.mul (.lit 1257788237343632 1000000000000000) (.coef 94)) (.xor (.mul (.var 0) (.var 1)) (.sub (.mul (.lit 2 1) (.var 2)) (.mul (.mul (.lit 3333333333333333 10000000000000000) (.var 0)) (.var 2)))),
  .mul (.mul (.lit 3773364712030896 1000000000000000) (.coef 235)) (.xor (.mul (.mul (.mul (.var 3) (.var 4)) (.var 5)) (.var 1)) (.sub (.mul (.lit 2 1) (.var 2)) (.mul (.mul (.mul (.mul (.lit 3333333333333333 10000000000000000) (.var 3)) (.var 4)) (.var 5)) (.var 2)))),
  .mul (.mul (.lit 2178553132241672 1000000000000000) (.coef 194)) (.xor (.mul (.mul (.var 4) (.var 5)) (.var 1)) (.sub (.mul (.lit 2 1) (.var 2)) (.mul (.mul (.mul (.lit 3333333333333333 10000000000000000) (.var 4)) (.var 5)) (.var 2)))),
  .mul (.mul (.lit 2178553132241672 1000000000000000) (.coef 185)) (.xor (.mul (.mul (.var 3) (.var 5)) (.var 1)) (.sub (.mul (.lit 2 1) (.var 2)) (.mul (.mul (.mul (.lit 3333333333333333 10000000000000000) (.var 3)) (.var 5)) (.var 2)))),
  .mul (.mul (.lit 1257788237343632 1000000000000000) (.coef 126)) (.xor (.mul (.var 5) (.var 1)) (.sub (.mul (.lit 2 1) (.var 2)) (.mul (.mul (.lit 3333333333333333 10000000000000000) (.var 5)) (.var 2)))),
  .mul (.mul (.lit 2178553132241672 1000000000000000) (.coef 169)) (.xor (.mul (.mul (.var 3) (.var 4)) (.var 1)) (.sub (.mul (.lit 2 1) (.var 2)) (.mul (.mul (.mul (.lit 3333333333333333 10000000000000000) (.var 3)) (.var 4)) (.var 2)))),
  .mul (.mul (.lit 1257788237343632 1000000000000000) (.coef 108)) (.xor (.mul (.var 4) (.var 1)) (.sub (.mul (.lit 2 1) (.var 2)) (.mul (.mul (.lit 3333333333333333 10000000000000000) (.var 4)) (.var 2)))),
  .mul (.mul (.lit 1257788237343632 1000000000000000) (.coef 99)) (.xor (.mul (.var 3) (.var 1)) (.sub (.mul (.lit 2 1) (.var 2)) (.mul (.mul (.lit 3333333333333333 10000000000000000) (.var 3)) (.var 2)))),
  .mul (.mul (.lit 7261843774138907 10000000000000000) (.coef 51)) (.xor (.var 1) (.sub (.mul (.lit 2 1) (.var 2)) (.mul (.lit 3333333333333333 10000000000000000) (.var 2)))),
  .mul (.mul (.lit 6535659396725016 1000000000000000) (.coef 250)) (.xor (.mul (.mul (.mul (.var 3) (.var 4)) (.var 5)) (.var 0)) (.sub (.mul (.mul (.lit 2 1) (.var 1)) (.var 2)) (.mul (.mul (.mul (.mul (.mul (.lit 3333333333333333 10000000000000000) (.var 3)) (.var 4)) (.var 5)) (.var 1)) (.var 2)))),
  .mul (.mul (.lit 3773364712030896 1000000000000000) (.coef 229)) (.xor (.mul (.mul (.var 4) (.var 5)) (.var 0)) (.sub (.mul (.mul (.lit 2 1) (.var 1)) (.var 2)) (.mul (.mul (.mul (.mul (.lit 3333333333333333 10000000000000000) (.var 4)) (.var 5)) (.var 1)) (.var 2)))),
  .mul (.mul (.lit 3773364712030896 1000000000000000) (.coef 225)) (.xor (.mul (.mul (.var 3) (.var 5)) (.var 0)) (.sub (.mul (.mul (.lit 2 1) (.var 1)) (.var 2)) (.mul (.mul (.mul (.mul (.lit 3333333333333333 10000000000000000) (.var 3)) (.var 5)) (.var 1)) (.var 2)))),
  .mul (.mul (.lit 2178553132241672 1000000000000000) (.coef 179)) (.xor (.mul (.var 5) (.var 0)) (.sub (.mul (.mul (.lit 2 1) (.var 1)) (.var 2)) (.mul (.mul (.mul (.lit 3333333333333333 10000000000000000) (.var 5)) (.var 1)) (.var 2)))),
  .mul (.mul (.lit 3773364712030896 1000000000000000) (.coef 220)) (.xor (.mul (.mul (.var 3) (.var 4)) (.var 0)) (.sub (.mul (.mul (.lit 2 1) (.var 1)) (.var 2)) (.mul (.mul (.mul (.mul (.lit 3333333333333333 10000000000000000) (.var 3)) (.var 4)) (.var 1)) (.var 2)))),
  .mul (.mul (.lit 2178553132241672 1000000000000000) (.coef 163)) (.xor (.mul (.var 4) (.var 0)) (.sub (.mul (.mul (.lit 2 1) (.var 1)) (.var 2)) (.mul (.mul (.mul (.lit 3333333333333333 10000000000000000) (.var 4)) (.var 1)) (.var 2)))),
  .mul (.mul (.lit 2178553132241672 1000000000000000) (.coef 159)) (.xor (.mul (.var 3) (.var 0)) (.sub (.mul (.mul (.lit 2 1) (.var 1)) (.var 2)) (.mul (.mul (.mul (.lit 3333333333333333 10000000000000000) (.var 3)) (.var 1)) (.var 2)))),
  .mul (.mul (.lit 1257788237343632 1000000000000000) (.coef 93)) (.xor (.var 0) (.sub (.mul (.mul (.lit 2 1) (.var 1)) (.var 2)) (.mul (.mul (.lit 3333333333333333 10000000000000000) (.var 1)) (.var 2)))),
  .mul (.mul (.lit 6535659396725016 1000000000000000) (.coef 255)) (.xor (.mul (.mul (.var 3) (.var 4)) (.var 5)) (.sub (.mul (.mul (.mul (.lit 2 1) (.var 0)) (.var 1)) (.var 2)) (.mul (.mul (.mul (.mul (.mul (.lit 3333333333333333 10000000000000000) (.var 3)) (.var 4)) (.var 0)) (.var 1)) (.var 2)))),
  .mul (.mul (.lit 3773364712030896 1000000000000000) (.coef 246)) (.xor (.mul (.var 4) (.var 5)) (.sub (.mul (.mul (.mul (.lit 2 1) (.var 0)) (.var 1)) (.var 2)) (.mul (.mul (.mul (.mul (.lit 3333333333333333 10000000000000000) (.var 4)) (.var 0)) (.var 1)) (.var 2)))),
  .mul (.mul (.lit 3773364712030896 1000000000000000) (.coef 245)) (.xor (.mul (.var 3) (.var 5)) (.sub (.mul (.mul (.mul (.lit 2 1) (.var 0)) (.var 1)) (.var 2)) (.mul (.mul (.mul (.mul (.lit 3333333333333333 10000000000000000) (.var 3)) (.var 0)) (.var 1)) (.var 2)))),
  .mul (.mul (.lit 2178553132241672 1000000000000000) (.coef 209)) (.xor (.var 5) (.sub (.mul (.mul (.mul (.lit 2 1) (.var 0)) (.var 1)) (.var 2)) (.mul (.mul (.mul (.lit 3333333333333333 10000000000000000) (.var 0)) (.var 1)) (.var 2)))),
  .mul (.mul (.lit 6535659396725016 1000000000000000) (.coef 254)) (.xor (.mul (.var 3) (.var 4)) (.sub (.mul (.mul (.mul (.mul (.lit 2 1) (.var 5)) (.var 0)) (.var 1)) (.var 2)) (.mul (.mul (.mul (.mul (.mul (.lit 3333333333333333 10000000000000000) (.var 3)) (.var 5)) (.var 0)) (.var 1)) (.var 2)))),
  .mul (.mul (.lit 3773364712030896 1000000000000000) (.coef 241)) (.xor (.var 4) (.sub (.mul (.mul (.mul (.mul (.lit 2 1) (.var 5)) (.var 0)) (.var 1)) (.var 2)) (.mul (.mul (.mul (.mul (.lit 3333333333333333 10000000000000000) (.var 5)) (.var 0)) (.var 1)) (.var 2)))),
  .mul (.mul (.lit 6535659396725016 1000000000000000) (.coef 253)) (.xor (.var 3) (.sub (.mul (.mul (.mul (.mul (.mul (.lit 2 1) (.var 4)) (.var 5)) (.var 0)) (.var 1)) (.var 2)) (.mul (.mul (.mul (.mul (.mul (.lit 3333333333333333 10000000000000000) (.var 4)) (.var 5)) (.var 0)) (.var 1)) (.var 2)))),
  .mul (.mul (.lit 3773364712030896 1000000000000000) (.coef 228)) (.xor (.var 3) (.sub (.mul (.mul (.mul (.mul (.lit 2 1) (.var 5)) (.var 0)) (.var 1)) (.var 2)) (.mul (.mul (.mul (.mul (.lit 3333333333333333 10000000000000000) (.var 5)) (.var 0)) (.var 1)) (.var 2)))),
  .mul (.mul (.lit 3773364712030896 1000000000000000) (.coef 224)) (.xor (.mul (.var 3) (.var 4)) (.sub (.mul (.mul (.mul (.lit 2 1) (.var 0)) (.var 1)) (.var 2)) (.mul (.mul (.mul (.mul (.lit 3333333333333333 10000000000000000) (.var 3)) (.var 0)) (.var 1)) (.var 2)))),
  .mul (.mul (.lit 2178553132241672 1000000000000000) (.coef 175)) (.xor (.var 4) (.sub (.mul (.mul (.mul (.lit 2 1) (.var 0)) (.var 1)) (.var 2)) (.mul (.mul (.mul (.lit 3333333333333333 10000000000000000) (.var 0)) (.var 1)) (.var 2)))),
  .mul (.mul (.lit 3773364712030896 1000000000000000) (.coef 223)) (.xor (.var 3) (.sub (.mul (.mul (.mul (.mul (.lit 2 1) (.var 4)) (.var 0)) (.var 1)) (.var 2)) (.mul (.mul (.mul (.mul (.lit 3333333333333333 10000000000000000) (.var 4)) (.var 0)) (.var 1)) (.var 2)))),
  .mul (.mul (.lit 2178553132241672 1000000000000000) (.coef 162)) (.xor (.var 3) (.sub (.mul (.mul (.mul (.lit 2 1) (.var 0)) (.var 1)) (.var 2)) (.mul (.mul (.mul (.lit 3333333333333333 10000000000000000) (.var 0)) (.var 1)) (.var 2)))),
  .mul (.mul (.lit 3773364712030896 1000000000000000) (.coef 249)) (.xor (.mul (.mul (.var 3) (.var 4)) (.var 5)) (.sub (.mul (.mul (.lit 2 1) (.var 1)) (.var 2)) (.mul (.mul (.mul (.mul (.lit 3333333333333333 10000000000000000) (.var 3)) (.var 4)) (.var 1)) (.var 2)))),
  .mul (.mul (.lit 2178553132241672 1000000000000000) (.coef 215)) (.xor (.mul (.var 4) (.var 5)) (.sub (.mul (.mul (.lit 2 1) (.var 1)) (.var 2)) (.mul (.mul (.mul (.lit 3333333333333333 10000000000000000) (.var 4)) (.var 1)) (.var 2)))),
  .mul (.mul (.lit 2178553132241672 1000000000000000) (.coef 212)) (.xor (.mul (.var 3) (.var 5)) (.sub (.mul (.mul (.lit 2 1) (.var 1)) (.var 2)) (.mul (.mul (.mul (.lit 3333333333333333 10000000000000000) (.var 3)) (.var 1)) (.var 2)))),
  .mul (.mul (.lit 1257788237343632 1000000000000000) (.coef 145)) (.xor (.var 5) (.sub (.mul (.mul (.lit 2 1) (.var 1)) (.var 2)) (.mul (.mul (.lit 3333333333333333 10000000000000000) (.var 1)) (.var 2)))),
  .mul (.mul (.lit 3773364712030896 1000000000000000) (.coef 244)) (.xor (.mul (.var 3) (.var 4)) (.sub (.mul (.mul (.mul (.lit 2 1) (.var 5)) (.var 1)) (.var 2)) (.mul (.mul (.mul (.mul (.lit 3333333333333333 10000000000000000) (.var 3)) (.var 5)) (.var 1)) (.var 2)))),
  .mul (.mul (.lit 2178553132241672 1000000000000000) (.coef 205)) (.xor (.var 4) (.sub (.mul (.mul (.mul (.lit 2 1) (.var 5)) (.var 1)) (.var 2)) (.mul (.mul (.mul (.lit 3333333333333333 10000000000000000) (.var 5)) (.var 1)) (.var 2)))),
  .mul (.mul (.lit 3773364712030896 1000000000000000) (.coef 240)) (.xor (.var 3) (.sub (.mul (.mul (.mul (.mul (.lit 2 1) (.var 4)) (.var 5)) (.var 1)) (.var 2)) (.mul (.mul (.mul (.mul (.lit 3333333333333333 10000000000000000) (.var 4)) (.var 5)) (.var 1)) (.var 2)))),
  .mul (.mul (.lit 2178553132241672 1000000000000000) (.coef 190)) (.xor (.var 3) (.sub (.mul (.mul (.mul (.lit 2 1) (.var 5)) (.var 1)) (.var 2)) (.mul (.mul (.mul (.lit 3333333333333333 10000000000000000) (.var 5)) (.var 1)) (.var 2)))),
  .mul (.mul (.lit 2178553132241672 1000000000000000) (.coef 178)) (.xor (.mul (.var 3) (.var 4)) (.sub (.mul (.mul (.lit 2 1) (.var 1)) (.var 2)) (.mul (.mul (.mul (.lit 3333333333333333 10000000000000000) (.var 3)) (.var 1)) (.var 2)))),
  .mul (.mul (.lit 1257788237343632 1000000000000000) (.coef 119)) (.xor (.var 4) (.sub (.mul (.mul (.lit 2 1) (.var 1)) (.var 2)) (.mul (.mul (.lit 3333333333333333 10000000000000000) (.var 1)) (.var 2)))),
  .mul (.mul (.lit 2178553132241672 1000000000000000) (.coef 174)) (.xor (.var 3) (.sub (.mul (.mul (.mul (.lit 2 1) (.var 4)) (.var 1)) (.var 2)) (.mul (.mul (.mul (.lit 3333333333333333 10000000000000000) (.var 4)) (.var 1)) (.var 2)))),
  .mul (.mul (.lit 1257788237343632 1000000000000000) (.coef 104)) (.xor (.var 3) (.sub (.mul (.mul (.lit 2 1) (.var 1)) (.var 2)) (.mul (.mul (.lit 3333333333333333 10000000000000000) (.var 1)) (.var 2)))),
  .mul (.mul (.lit 3773364712030896 1000000000000000) (.coef 234)) (.xor (.mul (.mul (.mul (.var 3) (.var 4)) (.var 5)) (.var 0)) (.sub (.mul (.lit 2 1) (.var 2)) (.mul (.mul (.mul (.mul (.lit 3333333333333333 10000000000000000) (.var 3)) (.var 4)) (.var 5)) (.var 2)))),
  .mul (.mul (.lit 2178553132241672 1000000000000000) (.coef 193)) (.xor (.mul (.mul (.var 4) (.var 5)) (.var 0)) (.sub (.mul (.lit 2 1) (.var 2)) (.mul (.mul (.mul (.lit 3333333333333333 10000000000000000) (.var 4)) (.var 5)) (.var 2)))),
  .mul (.mul (.lit 2178553132241672 1000000000000000) (.coef 184)) (.xor (.mul (.mul (.var 3) (.var 5)) (.var 0)) (.sub (.mul (.lit 2 1) (.var 2)) (.mul (.mul (.mul (.lit 3333333333333333 10000000000000000) (.var 3)) (.var 5)) (.var 2)))),
  .mul (.mul (.lit 1257788237343632 1000000000000000) (.coef 125)) (.xor (.mul (.var 5) (.var 0)) (.sub (.mul (.lit 2 1) (.var 2)) (.mul (.mul (.lit 3333333333333333 10000000000000000) (.var 5)) (.var 2)))),
  .mul (.mul (.lit 2178553132241672 1000000000000000) (.coef 168)) (.xor (.mul (.mul (.var 3) (.var 4)) (.var 0)) (.sub (.mul (.lit 2 1) (.var 2)) (.mul (.mul (.mul (.lit 3333333333333333 10000000000000000) (.var 3)) (.var 4)) (.var 2)))),
  .mul (.mul (.lit 1257788237343632 1000000000000000) (.coef 107)) (.xor (.mul (.var 4) (.var 0)) (.sub (.mul (.lit 2 1) (.var 2)) (.mul (.mul (.lit 3333333333333333 10000000000000000) (.var 4)) (.var 2)))),
  .mul (.mul (.lit 1257788237343632 1000000000000000) (.coef 98)) (.xor (.mul (.var 3) (.var 0)) (.sub (.mul (.lit 2 1) (.var 2)) (.mul (.mul (.lit 3333333333333333 10000000000000000) (.var 3)) (.var 2)))),
  .mul (.mul (.lit 7261843774138907 10000000000000000) (.coef 50)) (.xor (.var 0) (.sub (.mul (.lit 2 1) (.var 2)) (.mul (.lit 3333333333333333 10000000000000000) (.var 2)))),
  .mul (.mul (.lit 3773364712030896 1000000000000000) (.coef 248)) (.xor (.mul (.mul (.var 3) (.var 4)) (.var 5)) (.sub (.mul (.mul (.lit 2 1) (.var 0)) (.var 2)) (.mul (.mul (.mul (.mul (.lit 3333333333333333 10000000000000000) (.var 3)) (.var 4)) (.var 0)) (.var 2)))),
  .mul (.mul (.lit 2178553132241672 1000000000000000) (.coef 214)) (.xor (.mul (.var 4) (.var 5)) (.sub (.mul (.mul (.lit 2 1) (.var 0)) (.var 2)) (.mul (.mul (.mul (.lit 3333333333333333 10000000000000000) (.var 4)) (.var 0)) (.var 2)))),
  .mul (.mul (.lit 2178553132241672 1000000000000000) (.coef 211)) (.xor (.mul (.var 3) (.var 5)) (.sub (.mul (.mul (.lit 2 1) (.var 0)) (.var 2)) (.mul (.mul (.mul (.lit 3333333333333333 10000000000000000) (.var 3)) (.var 0)) (.var 2)))),
  .mul (.mul (.lit 1257788237343632 1000000000000000) (.coef 144)) (.xor (.var 5) (.sub (.mul (.mul (.lit 2 1) (.var 0)) (.var 2)) (.mul (.mul (.lit 3333333333333333 10000000000000000) (.var 0)) (.var 2)))),
  .mul (.mul (.lit 3773364712030896 1000000000000000) (.coef 243)) (.xor (.mul (.var 3) (.var 4)) (.sub (.mul (.mul (.mul (.lit 2 1) (.var 5)) (.var 0)) (.var 2)) (.mul (.mul (.mul (.mul (.lit 3333333333333333 10000000000000000) (.var 3)) (.var 5)) (.var 0)) (.var 2)))),
  .mul (.mul (.lit 2178553132241672 1000000000000000) (.coef 204)) (.xor (.var 4) (.sub (.mul (.mul (.mul (.lit 2 1) (.var 5)) (.var 0)) (.var 2)) (.mul (.mul (.mul (.lit 3333333333333333 10000000000000000) (.var 5)) (.var 0)) (.var 2)))),
  .mul (.mul (.lit 3773364712030896 1000000000000000) (.coef 239)) (.xor (.var 3) (.sub (.mul (.mul (.mul (.mul (.lit 2 1) (.var 4)) (.var 5)) (.var 0)) (.var 2)) (.mul (.mul (.mul (.mul (.lit 3333333333333333 10000000000000000) (.var 4)) (.var 5)) (.var 0)) (.var 2)))),
  .mul (.mul (.lit 2178553132241672 1000000000000000) (.coef 189)) (.xor (.var 3) (.sub (.mul (.mul (.mul (.lit 2 1) (.var 5)) (.var 0)) (.var 2)) (.mul (.mul (.mul (.lit 3333333333333333 10000000000000000) (.var 5)) (.var 0)) (.var 2)))),
  .mul (.mul (.lit 2178553132241672 1000000000000000) (.coef 177)) (.xor (.mul (.var 3) (.var 4)) (.sub (.mul (.mul (.lit 2 1) (.var 0)) (.var 2)) (.mul (.mul (.mul (.lit 3333333333333333 10000000000000000) (.var 3)) (.var 0)) (.var 2)))),
  .mul (.mul (.lit 1257788237343632 1000000000000000) (.coef 118)) (.xor (.var 4) (.sub (.mul (.mul (.lit 2 1) (.var 0)) (.var 2)) (.mul (.mul (.lit 3333333333333333 10000000000000000) (.var 0)) (.var 2)))),
  .mul (.mul (.lit 2178553132241672 1000000000000000) (.coef 173)) (.xor (.var 3) (.sub (.mul (.mul (.mul (.lit 2 1) (.var 4)) (.var 0)) (.var 2)) (.mul (.mul (.mul (.lit 3333333333333333 10000000000000000) (.var 4)) (.var 0)) (.var 2)))),
  .mul (.mul (.lit 1257788237343632 1000000000000000) (.coef 103)) (.xor (.var 3) (.sub (.mul (.mul (.lit 2 1) (.var 0)) (.var 2)) (.mul (.mul (.lit 3333333333333333 10000000000000000) (.var 0)) (.var 2)))),
  .mul (.mul (.lit 2178553132241672 1000000000000000) (.coef 218)) (.xor (.mul (.mul (.var 3) (.var 4)) (.var 5)) (.sub (.mul (.lit 2 1) (.var 2)) (.mul (.mul (.mul (.lit 3333333333333333 10000000000000000) (.var 3)) (.var 4)) (.var 2)))),
  .mul (.mul (.lit 1257788237343632 1000000000000000) (.coef 151)) (.xor (.mul (.var 4) (.var 5)) (.sub (.mul (.lit 2 1) (.var 2)) (.mul (.mul (.lit 3333333333333333 10000000000000000) (.var 4)) (.var 2)))),
  .mul (.mul (.lit 1257788237343632 1000000000000000) (.coef 148)) (.xor (.mul (.var 3) (.var 5)) (.sub (.mul (.lit 2 1) (.var 2)) (.mul (.mul (.lit 3333333333333333 10000000000000000) (.var 3)) (.var 2)))),
  .mul (.mul (.lit 7261843774138907 10000000000000000) (.coef 75)) (.xor (.var 5) (.sub (.mul (.lit 2 1) (.var 2)) (.mul (.lit 3333333333333333 10000000000000000) (.var 2)))),
  .mul (.mul (.lit 2178553132241672 1000000000000000) (.coef 208)) (.xor (.mul (.var 3) (.var 4)) (.sub (.mul (.mul (.lit 2 1) (.var 5)) (.var 2)) (.mul (.mul (.mul (.lit 3333333333333333 10000000000000000) (.var 3)) (.var 5)) (.var 2)))),
  .mul (.mul (.lit 1257788237343632 1000000000000000) (.coef 141)) (.xor (.var 4) (.sub (.mul (.mul (.lit 2 1) (.var 5)) (.var 2)) (.mul (.mul (.lit 3333333333333333 10000000000000000) (.var 5)) (.var 2)))),
  .mul (.mul (.lit 2178553132241672 1000000000000000) (.coef 202)) (.xor (.var 3) (.sub (.mul (.mul (.mul (.lit 2 1) (.var 4)) (.var 5)) (.var 2)) (.mul (.mul (.mul (.lit 3333333333333333 10000000000000000) (.var 4)) (.var 5)) (.var 2)))),
  .mul (.mul (.lit 1257788237343632 1000000000000000) (.coef 134)) (.xor (.var 3) (.sub (.mul (.mul (.lit 2 1) (.var 5)) (.var 2)) (.mul (.mul (.lit 3333333333333333 10000000000000000) (.var 5)) (.var 2)))),
  .mul (.mul (.lit 1257788237343632 1000000000000000) (.coef 122)) (.xor (.mul (.var 3) (.var 4)) (.sub (.mul (.lit 2 1) (.var 2)) (.mul (.mul (.lit 3333333333333333 10000000000000000) (.var 3)) (.var 2)))),
  .mul (.mul (.lit 7261843774138907 10000000000000000) (.coef 66)) (.xor (.var 4) (.sub (.mul (.lit 2 1) (.var 2)) (.mul (.lit 3333333333333333 10000000000000000) (.var 2)))),
  .mul (.mul (.lit 1257788237343632 1000000000000000) (.coef 116)) (.xor (.var 3) (.sub (.mul (.mul (.lit 2 1) (.var 4)) (.var 2)) (.mul (.mul (.lit 3333333333333333 10000000000000000) (.var 4)) (.var 2)))),
  .mul (.mul (.lit 7261843774138907 10000000000000000) (.coef 59)) (.xor (.var 3) (.sub (.mul (.lit 2 1) (.var 2)) (.mul (.lit 3333333333333333 10000000000000000) (.var 2)))),
  .mul (.mul (.mul (.mul (.mul (.mul (.mul (.lit 3375 1000) (.coef 219)) (.var 3)) (.var 4)) (.var 5)) (.var 0)) (.var 1)) (.var 2),
  .mul (.mul (.mul (.mul (.mul (.mul (.lit 1948557158514986 1000000000000000) (.coef 155)) (.var 4)) (.var 5)) (.var 0)) (.var 1)) (.var 2),
  .mul (.mul (.mul (.mul (.mul (.mul (.lit 1948557158514986 1000000000000000) (.coef 154)) (.var 3)) (.var 5)) (.var 0)) (.var 1)) (.var 2),
  .mul (.mul (.mul (.mul (.mul (.lit 1125 1000) (.coef 83)) (.var 5)) (.var 0)) (.var 1)) (.var 2),
  .mul (.mul (.mul (.mul (.mul (.mul (.lit 1948557158514986 1000000000000000) (.coef 153)) (.var 3)) (.var 4)) (.var 0)) (.var 1)) (.var 2),
  .mul (.mul (.mul (.mul (.mul (.lit 1125 1000) (.coef 79)) (.var 4)) (.var 0)) (.var 1)) (.var 2),
  .mul (.mul (.mul (.mul (.mul (.lit 1125 1000) (.coef 78)) (.var 3)) (.var 0)) (.var 1)) (.var 2),
  .mul (.mul (.mul (.mul (.lit 6495190528383289 10000000000000000) (.coef 28)) (.var 0)) (.var 1)) (.var 2),
  .mul (.mul (.mul (.mul (.mul (.mul (.lit 1948557158514986 1000000000000000) (.coef 158)) (.var 3)) (.var 4)) (.var 5)) (.var 1)) (.var 2),
  .mul (.mul (.mul (.mul (.mul (.lit 1125 1000) (.coef 89)) (.var 4)) (.var 5)) (.var 1)) (.var 2),
  .mul (.mul (.mul (.mul (.mul (.lit 1125 1000) (.coef 86)) (.var 3)) (.var 5)) (.var 1)) (.var 2),
  .mul (.mul (.mul (.mul (.lit 6495190528383289 10000000000000000) (.coef 40)) (.var 5)) (.var 1)) (.var 2),
  .mul (.mul (.mul (.mul (.mul (.lit 1125 1000) (.coef 82)) (.var 3)) (.var 4)) (.var 1)) (.var 2),
  .mul (.mul (.mul (.mul (.lit 6495190528383289 10000000000000000) (.coef 34)) (.var 4)) (.var 1)) (.var 2),
  .mul (.mul (.mul (.mul (.lit 6495190528383289 10000000000000000) (.coef 31)) (.var 3)) (.var 1)) (.var 2),
  .mul (.mul (.mul (.lit 375 1000) (.coef 9)) (.var 1)) (.var 2),
  .mul (.mul (.mul (.mul (.mul (.mul (.lit 1948557158514986 1000000000000000) (.coef 157)) (.var 3)) (.var 4)) (.var 5)) (.var 0)) (.var 2),
  .mul (.mul (.mul (.mul (.mul (.lit 1125 1000) (.coef 88)) (.var 4)) (.var 5)) (.var 0)) (.var 2),
  .mul (.mul (.mul (.mul (.mul (.lit 1125 1000) (.coef 85)) (.var 3)) (.var 5)) (.var 0)) (.var 2),
  .mul (.mul (.mul (.mul (.lit 6495190528383289 10000000000000000) (.coef 39)) (.var 5)) (.var 0)) (.var 2),
  .mul (.mul (.mul (.mul (.mul (.lit 1125 1000) (.coef 81)) (.var 3)) (.var 4)) (.var 0)) (.var 2),
  .mul (.mul (.mul (.mul (.lit 6495190528383289 10000000000000000) (.coef 33)) (.var 4)) (.var 0)) (.var 2),
  .mul (.mul (.mul (.mul (.lit 6495190528383289 10000000000000000) (.coef 30)) (.var 3)) (.var 0)) (.var 2),
  .mul (.mul (.mul (.lit 375 1000) (.coef 8)) (.var 0)) (.var 2),
  .mul (.mul (.mul (.mul (.mul (.lit 1125 1000) (.coef 92)) (.var 3)) (.var 4)) (.var 5)) (.var 2),
  .mul (.mul (.mul (.mul (.lit 6495190528383289 10000000000000000) (.coef 46)) (.var 4)) (.var 5)) (.var 2),
  .mul (.mul (.mul (.mul (.lit 6495190528383289 10000000000000000) (.coef 43)) (.var 3)) (.var 5)) (.var 2),
  .mul (.mul (.mul (.lit 375 1000) (.coef 19)) (.var 5)) (.var 2),
  .mul (.mul (.mul (.mul (.lit 6495190528383289 10000000000000000) (.coef 37)) (.var 3)) (.var 4)) (.var 2),
  .mul (.mul (.mul (.lit 375 1000) (.coef 15)) (.var 4)) (.var 2),
  .mul (.mul (.mul (.lit 375 1000) (.coef 12)) (.var 3)) (.var 2),
  .mul (.mul (.lit 2165063509461096 10000000000000000) (.coef 3)) (.var 2),
  .mul (.mul (.lit 3773364712030896 1000000000000000) (.coef 233)) (.xor (.mul (.mul (.mul (.mul (.var 3) (.var 4)) (.var 5)) (.var 0)) (.var 1)) (.sub (.lit 2 1) (.mul (.mul (.mul (.mul (.lit 3333333333333333 10000000000000000) (.var 3)) (.var 4)) (.var 5)) (.var 0)))),
  .mul (.mul (.lit 2178553132241672 1000000000000000) (.coef 192)) (.xor (.mul (.mul (.mul (.var 4) (.var 5)) (.var 0)) (.var 1)) (.sub (.lit 2 1) (.mul (.mul (.mul (.lit 3333333333333333 10000000000000000) (.var 4)) (.var 5)) (.var 0)))),
  .mul (.mul (.lit 2178553132241672 1000000000000000) (.coef 183)) (.xor (.mul (.mul (.mul (.var 3) (.var 5)) (.var 0)) (.var 1)) (.sub (.lit 2 1) (.mul (.mul (.mul (.lit 3333333333333333 10000000000000000) (.var 3)) (.var 5)) (.var 0)))),
  .mul (.mul (.lit 1257788237343632 1000000000000000) (.coef 124)) (.xor (.mul (.mul (.var 5) (.var 0)) (.var 1)) (.sub (.lit 2 1) (.mul (.mul (.lit 3333333333333333 10000000000000000) (.var 5)) (.var 0)))),
  .mul (.mul (.lit 2178553132241672 1000000000000000) (.coef 167)) (.xor (.mul (.mul (.mul (.var 3) (.var 4)) (.var 0)) (.var 1)) (.sub (.lit 2 1) (.mul (.mul (.mul (.lit 3333333333333333 10000000000000000) (.var 3)) (.var 4)) (.var 0)))),
  .mul (.mul (.lit 1257788237343632 1000000000000000) (.coef 106)) (.xor (.mul (.mul (.var 4) (.var 0)) (.var 1)) (.sub (.lit 2 1) (.mul (.mul (.lit 3333333333333333 10000000000000000) (.var 4)) (.var 0)))),
  .mul (.mul (.lit 1257788237343632 1000000000000000) (.coef 97)) (.xor (.mul (.mul (.var 3) (.var 0)) (.var 1)) (.sub (.lit 2 1) (.mul (.mul (.lit 3333333333333333 10000000000000000) (.var 3)) (.var 0)))),
  .mul (.mul (.lit 7261843774138907 10000000000000000) (.coef 49)) (.xor (.mul (.var 0) (.var 1)) (.sub (.lit 2 1) (.mul (.lit 3333333333333333 10000000000000000) (.var 0)))),
  .mul (.mul (.lit 2178553132241672 1000000000000000) (.coef 198)) (.xor (.mul (.mul (.mul (.var 3) (.var 4)) (.var 5)) (.var 1)) (.sub (.lit 2 1) (.mul (.mul (.mul (.lit 3333333333333333 10000000000000000) (.var 3)) (.var 4)) (.var 5)))),
  .mul (.mul (.lit 1257788237343632 1000000000000000) (.coef 136)) (.xor (.mul (.mul (.var 4) (.var 5)) (.var 1)) (.sub (.lit 2 1) (.mul (.mul (.lit 3333333333333333 10000000000000000) (.var 4)) (.var 5)))),
  .mul (.mul (.lit 1257788237343632 1000000000000000) (.coef 130)) (.xor (.mul (.mul (.var 3) (.var 5)) (.var 1)) (.sub (.lit 2 1) (.mul (.mul (.lit 3333333333333333 10000000000000000) (.var 3)) (.var 5)))),
  .mul (.mul (.lit 7261843774138907 10000000000000000) (.coef 69)) (.xor (.mul (.var 5) (.var 1)) (.sub (.lit 2 1) (.mul (.lit 3333333333333333 10000000000000000) (.var 5)))),
  .mul (.mul (.lit 1257788237343632 1000000000000000) (.coef 112)) (.xor (.mul (.mul (.var 3) (.var 4)) (.var 1)) (.sub (.lit 2 1) (.mul (.mul (.lit 3333333333333333 10000000000000000) (.var 3)) (.var 4)))),
  .mul (.mul (.lit 7261843774138907 10000000000000000) (.coef 61)) (.xor (.mul (.var 4) (.var 1)) (.sub (.lit 2 1) (.mul (.lit 3333333333333333 10000000000000000) (.var 4)))),
  .mul (.mul (.lit 7261843774138907 10000000000000000) (.coef 55)) (.xor (.mul (.var 3) (.var 1)) (.sub (.lit 2 1) (.mul (.lit 3333333333333333 10000000000000000) (.var 3)))),
  .mul (.mul (.lit 4192627457812106 10000000000000000) (.coef 23)) (.xor (.var 1) (.sub (.lit 2 1) (.lit 3333333333333333 10000000000000000))),
  .mul (.mul (.lit 3773364712030896 1000000000000000) (.coef 232)) (.xor (.mul (.mul (.mul (.var 3) (.var 4)) (.var 5)) (.var 0)) (.sub (.mul (.lit 2 1) (.var 1)) (.mul (.mul (.mul (.mul (.lit 3333333333333333 10000000000000000) (.var 3)) (.var 4)) (.var 5)) (.var 1)))),
  .mul (.mul (.lit 2178553132241672 1000000000000000) (.coef 191)) (.xor (.mul (.mul (.var 4) (.var 5)) (.var 0)) (.sub (.mul (.lit 2 1) (.var 1)) (.mul (.mul (.mul (.lit 3333333333333333 10000000000000000) (.var 4)) (.var 5)) (.var 1)))),
  .mul (.mul (.lit 2178553132241672 1000000000000000) (.coef 182)) (.xor (.mul (.mul (.var 3) (.var 5)) (.var 0)) (.sub (.mul (.lit 2 1) (.var 1)) (.mul (.mul (.mul (.lit 3333333333333333 10000000000000000) (.var 3)) (.var 5)) (.var 1)))),
  .mul (.mul (.lit 1257788237343632 1000000000000000) (.coef 123)) (.xor (.mul (.var 5) (.var 0)) (.sub (.mul (.lit 2 1) (.var 1)) (.mul (.mul (.lit 3333333333333333 10000000000000000) (.var 5)) (.var 1)))),
  .mul (.mul (.lit 2178553132241672 1000000000000000) (.coef 166)) (.xor (.mul (.mul (.var 3) (.var 4)) (.var 0)) (.sub (.mul (.lit 2 1) (.var 1)) (.mul (.mul (.mul (.lit 3333333333333333 10000000000000000) (.var 3)) (.var 4)) (.var 1)))),
  .mul (.mul (.lit 1257788237343632 1000000000000000) (.coef 105)) (.xor (.mul (.var 4) (.var 0)) (.sub (.mul (.lit 2 1) (.var 1)) (.mul (.mul (.lit 3333333333333333 10000000000000000) (.var 4)) (.var 1)))),
  .mul (.mul (.lit 1257788237343632 1000000000000000) (.coef 96)) (.xor (.mul (.var 3) (.var 0)) (.sub (.mul (.lit 2 1) (.var 1)) (.mul (.mul (.lit 3333333333333333 10000000000000000) (.var 3)) (.var 1)))),
  .mul (.mul (.lit 7261843774138907 10000000000000000) (.coef 48)) (.xor (.var 0) (.sub (.mul (.lit 2 1) (.var 1)) (.mul (.lit 3333333333333333 10000000000000000) (.var 1)))),
  .mul (.mul (.lit 3773364712030896 1000000000000000) (.coef 247)) (.xor (.mul (.mul (.var 3) (.var 4)) (.var 5)) (.sub (.mul (.mul (.lit 2 1) (.var 0)) (.var 1)) (.mul (.mul (.mul (.mul (.lit 3333333333333333 10000000000000000) (.var 3)) (.var 4)) (.var 0)) (.var 1)))),
  .mul (.mul (.lit 2178553132241672 1000000000000000) (.coef 213)) (.xor (.mul (.var 4) (.var 5)) (.sub (.mul (.mul (.lit 2 1) (.var 0)) (.var 1)) (.mul (.mul (.mul (.lit 3333333333333333 10000000000000000) (.var 4)) (.var 0)) (.var 1)))),
  .mul (.mul (.lit 2178553132241672 1000000000000000) (.coef 210)) (.xor (.mul (.var 3) (.var 5)) (.sub (.mul (.mul (.lit 2 1) (.var 0)) (.var 1)) (.mul (.mul (.mul (.lit 3333333333333333 10000000000000000) (.var 3)) (.var 0)) (.var 1)))),
  .mul (.mul (.lit 1257788237343632 1000000000000000) (.coef 143)) (.xor (.var 5) (.sub (.mul (.mul (.lit 2 1) (.var 0)) (.var 1)) (.mul (.mul (.lit 3333333333333333 10000000000000000) (.var 0)) (.var 1)))),
  .mul (.mul (.lit 3773364712030896 1000000000000000) (.coef 242)) (.xor (.mul (.var 3) (.var 4)) (.sub (.mul (.mul (.mul (.lit 2 1) (.var 5)) (.var 0)) (.var 1)) (.mul (.mul (.mul (.mul (.lit 3333333333333333 10000000000000000) (.var 3)) (.var 5)) (.var 0)) (.var 1)))),
  .mul (.mul (.lit 2178553132241672 1000000000000000) (.coef 203)) (.xor (.var 4) (.sub (.mul (.mul (.mul (.lit 2 1) (.var 5)) (.var 0)) (.var 1)) (.mul (.mul (.mul (.lit 3333333333333333 10000000000000000) (.var 5)) (.var 0)) (.var 1)))),
  .mul (.mul (.lit 3773364712030896 1000000000000000) (.coef 238)) (.xor (.var 3) (.sub (.mul (.mul (.mul (.mul (.lit 2 1) (.var 4)) (.var 5)) (.var 0)) (.var 1)) (.mul (.mul (.mul (.mul (.lit 3333333333333333 10000000000000000) (.var 4)) (.var 5)) (.var 0)) (.var 1)))),
  .mul (.mul (.lit 2178553132241672 1000000000000000) (.coef 188)) (.xor (.var 3) (.sub (.mul (.mul (.mul (.lit 2 1) (.var 5)) (.var 0)) (.var 1)) (.mul (.mul (.mul (.lit 3333333333333333 10000000000000000) (.var 5)) (.var 0)) (.var 1)))),
  .mul (.mul (.lit 2178553132241672 1000000000000000) (.coef 176)) (.xor (.mul (.var 3) (.var 4)) (.sub (.mul (.mul (.lit 2 1) (.var 0)) (.var 1)) (.mul (.mul (.mul (.lit 3333333333333333 10000000000000000) (.var 3)) (.var 0)) (.var 1)))),
  .mul (.mul (.lit 1257788237343632 1000000000000000) (.coef 117)) (.xor (.var 4) (.sub (.mul (.mul (.lit 2 1) (.var 0)) (.var 1)) (.mul (.mul (.lit 3333333333333333 10000000000000000) (.var 0)) (.var 1)))),
  .mul (.mul (.lit 2178553132241672 1000000000000000) (.coef 172)) (.xor (.var 3) (.sub (.mul (.mul (.mul (.lit 2 1) (.var 4)) (.var 0)) (.var 1)) (.mul (.mul (.mul (.lit 3333333333333333 10000000000000000) (.var 4)) (.var 0)) (.var 1)))),
  .mul (.mul (.lit 1257788237343632 1000000000000000) (.coef 102)) (.xor (.var 3) (.sub (.mul (.mul (.lit 2 1) (.var 0)) (.var 1)) (.mul (.mul (.lit 3333333333333333 10000000000000000) (.var 0)) (.var 1)))),
  .mul (.mul (.lit 2178553132241672 1000000000000000) (.coef 217)) (.xor (.mul (.mul (.var 3) (.var 4)) (.var 5)) (.sub (.mul (.lit 2 1) (.var 1)) (.mul (.mul (.mul (.lit 3333333333333333 10000000000000000) (.var 3)) (.var 4)) (.var 1)))),
  .mul (.mul (.lit 1257788237343632 1000000000000000) (.coef 150)) (.xor (.mul (.var 4) (.var 5)) (.sub (.mul (.lit 2 1) (.var 1)) (.mul (.mul (.lit 3333333333333333 10000000000000000) (.var 4)) (.var 1)))),
  .mul (.mul (.lit 1257788237343632 1000000000000000) (.coef 147)) (.xor (.mul (.var 3) (.var 5)) (.sub (.mul (.lit 2 1) (.var 1)) (.mul (.mul (.lit 3333333333333333 10000000000000000) (.var 3)) (.var 1)))),
  .mul (.mul (.lit 7261843774138907 10000000000000000) (.coef 74)) (.xor (.var 5) (.sub (.mul (.lit 2 1) (.var 1)) (.mul (.lit 3333333333333333 10000000000000000) (.var 1)))),
  .mul (.mul (.lit 2178553132241672 1000000000000000) (.coef 207)) (.xor (.mul (.var 3) (.var 4)) (.sub (.mul (.mul (.lit 2 1) (.var 5)) (.var 1)) (.mul (.mul (.mul (.lit 3333333333333333 10000000000000000) (.var 3)) (.var 5)) (.var 1)))),
  .mul (.mul (.lit 1257788237343632 1000000000000000) (.coef 140)) (.xor (.var 4) (.sub (.mul (.mul (.lit 2 1) (.var 5)) (.var 1)) (.mul (.mul (.lit 3333333333333333 10000000000000000) (.var 5)) (.var 1)))),
  .mul (.mul (.lit 2178553132241672 1000000000000000) (.coef 201)) (.xor (.var 3) (.sub (.mul (.mul (.mul (.lit 2 1) (.var 4)) (.var 5)) (.var 1)) (.mul (.mul (.mul (.lit 3333333333333333 10000000000000000) (.var 4)) (.var 5)) (.var 1)))),
  .mul (.mul (.lit 1257788237343632 1000000000000000) (.coef 133)) (.xor (.var 3) (.sub (.mul (.mul (.lit 2 1) (.var 5)) (.var 1)) (.mul (.mul (.lit 3333333333333333 10000000000000000) (.var 5)) (.var 1)))),
  .mul (.mul (.lit 1257788237343632 1000000000000000) (.coef 121)) (.xor (.mul (.var 3) (.var 4)) (.sub (.mul (.lit 2 1) (.var 1)) (.mul (.mul (.lit 3333333333333333 10000000000000000) (.var 3)) (.var 1)))),
  .mul (.mul (.lit 7261843774138907 10000000000000000) (.coef 65)) (.xor (.var 4) (.sub (.mul (.lit 2 1) (.var 1)) (.mul (.lit 3333333333333333 10000000000000000) (.var 1)))),
  .mul (.mul (.lit 1257788237343632 1000000000000000) (.coef 115)) (.xor (.var 3) (.sub (.mul (.mul (.lit 2 1) (.var 4)) (.var 1)) (.mul (.mul (.lit 3333333333333333 10000000000000000) (.var 4)) (.var 1)))),
  .mul (.mul (.lit 7261843774138907 10000000000000000) (.coef 58)) (.xor (.var 3) (.sub (.mul (.lit 2 1) (.var 1)) (.mul (.lit 3333333333333333 10000000000000000) (.var 1)))),
  .mul (.mul (.mul (.mul (.mul (.mul (.lit 1948557158514986 1000000000000000) (.coef 156)) (.var 3)) (.var 4)) (.var 5)) (.var 0)) (.var 1),
  .mul (.mul (.mul (.mul (.mul (.lit 1125 1000) (.coef 87)) (.var 4)) (.var 5)) (.var 0)) (.var 1),
  .mul (.mul (.mul (.mul (.mul (.lit 1125 1000) (.coef 84)) (.var 3)) (.var 5)) (.var 0)) (.var 1),
  .mul (.mul (.mul (.mul (.lit 6495190528383289 10000000000000000) (.coef 38)) (.var 5)) (.var 0)) (.var 1),
  .mul (.mul (.mul (.mul (.mul (.lit 1125 1000) (.coef 80)) (.var 3)) (.var 4)) (.var 0)) (.var 1),
  .mul (.mul (.mul (.mul (.lit 6495190528383289 10000000000000000) (.coef 32)) (.var 4)) (.var 0)) (.var 1),
  .mul (.mul (.mul (.mul (.lit 6495190528383289 10000000000000000) (.coef 29)) (.var 3)) (.var 0)) (.var 1),
  .mul (.mul (.mul (.lit 375 1000) (.coef 7)) (.var 0)) (.var 1),
  .mul (.mul (.mul (.mul (.mul (.lit 1125 1000) (.coef 91)) (.var 3)) (.var 4)) (.var 5)) (.var 1),
  .mul (.mul (.mul (.mul (.lit 6495190528383289 10000000000000000) (.coef 45)) (.var 4)) (.var 5)) (.var 1),
  .mul (.mul (.mul (.mul (.lit 6495190528383289 10000000000000000) (.coef 42)) (.var 3)) (.var 5)) (.var 1),
  .mul (.mul (.mul (.lit 375 1000) (.coef 18)) (.var 5)) (.var 1),
  .mul (.mul (.mul (.mul (.lit 6495190528383289 10000000000000000) (.coef 36)) (.var 3)) (.var 4)) (.var 1),
  .mul (.mul (.mul (.lit 375 1000) (.coef 14)) (.var 4)) (.var 1),
  .mul (.mul (.mul (.lit 375 1000) (.coef 11)) (.var 3)) (.var 1),
  .mul (.mul (.lit 2165063509461096 10000000000000000) (.coef 2)) (.var 1),
  .mul (.mul (.lit 2178553132241672 1000000000000000) (.coef 197)) (.xor (.mul (.mul (.mul (.var 3) (.var 4)) (.var 5)) (.var 0)) (.sub (.lit 2 1) (.mul (.mul (.mul (.lit 3333333333333333 10000000000000000) (.var 3)) (.var 4)) (.var 5)))),
  .mul (.mul (.lit 1257788237343632 1000000000000000) (.coef 135)) (.xor (.mul (.mul (.var 4) (.var 5)) (.var 0)) (.sub (.lit 2 1) (.mul (.mul (.lit 3333333333333333 10000000000000000) (.var 4)) (.var 5)))),
  .mul (.mul (.lit 1257788237343632 1000000000000000) (.coef 129)) (.xor (.mul (.mul (.var 3) (.var 5)) (.var 0)) (.sub (.lit 2 1) (.mul (.mul (.lit 3333333333333333 10000000000000000) (.var 3)) (.var 5)))),
  .mul (.mul (.lit 7261843774138907 10000000000000000) (.coef 68)) (.xor (.mul (.var 5) (.var 0)) (.sub (.lit 2 1) (.mul (.lit 3333333333333333 10000000000000000) (.var 5)))),
  .mul (.mul (.lit 1257788237343632 1000000000000000) (.coef 111)) (.xor (.mul (.mul (.var 3) (.var 4)) (.var 0)) (.sub (.lit 2 1) (.mul (.mul (.lit 3333333333333333 10000000000000000) (.var 3)) (.var 4)))),
  .mul (.mul (.lit 7261843774138907 10000000000000000) (.coef 60)) (.xor (.mul (.var 4) (.var 0)) (.sub (.lit 2 1) (.mul (.lit 3333333333333333 10000000000000000) (.var 4)))),
  .mul (.mul (.lit 7261843774138907 10000000000000000) (.coef 54)) (.xor (.mul (.var 3) (.var 0)) (.sub (.lit 2 1) (.mul (.lit 3333333333333333 10000000000000000) (.var 3)))),
  .mul (.mul (.lit 4192627457812106 10000000000000000) (.coef 22)) (.xor (.var 0) (.sub (.lit 2 1) (.lit 3333333333333333 10000000000000000))),
  .mul (.mul (.lit 2178553132241672 1000000000000000) (.coef 216)) (.xor (.mul (.mul (.var 3) (.var 4)) (.var 5)) (.sub (.mul (.lit 2 1) (.var 0)) (.mul (.mul (.mul (.lit 3333333333333333 10000000000000000) (.var 3)) (.var 4)) (.var 0)))),
  .mul (.mul (.lit 1257788237343632 1000000000000000) (.coef 149)) (.xor (.mul (.var 4) (.var 5)) (.sub (.mul (.lit 2 1) (.var 0)) (.mul (.mul (.lit 3333333333333333 10000000000000000) (.var 4)) (.var 0)))),
  .mul (.mul (.lit 1257788237343632 1000000000000000) (.coef 146)) (.xor (.mul (.var 3) (.var 5)) (.sub (.mul (.lit 2 1) (.var 0)) (.mul (.mul (.lit 3333333333333333 10000000000000000) (.var 3)) (.var 0)))),
  .mul (.mul (.lit 7261843774138907 10000000000000000) (.coef 73)) (.xor (.var 5) (.sub (.mul (.lit 2 1) (.var 0)) (.mul (.lit 3333333333333333 10000000000000000) (.var 0)))),
  .mul (.mul (.lit 2178553132241672 1000000000000000) (.coef 206)) (.xor (.mul (.var 3) (.var 4)) (.sub (.mul (.mul (.lit 2 1) (.var 5)) (.var 0)) (.mul (.mul (.mul (.lit 3333333333333333 10000000000000000) (.var 3)) (.var 5)) (.var 0)))),
  .mul (.mul (.lit 1257788237343632 1000000000000000) (.coef 139)) (.xor (.var 4) (.sub (.mul (.mul (.lit 2 1) (.var 5)) (.var 0)) (.mul (.mul (.lit 3333333333333333 10000000000000000) (.var 5)) (.var 0)))),
  .mul (.mul (.lit 2178553132241672 1000000000000000) (.coef 200)) (.xor (.var 3) (.sub (.mul (.mul (.mul (.lit 2 1) (.var 4)) (.var 5)) (.var 0)) (.mul (.mul (.mul (.lit 3333333333333333 10000000000000000) (.var 4)) (.var 5)) (.var 0)))),
  .mul (.mul (.lit 1257788237343632 1000000000000000) (.coef 132)) (.xor (.var 3) (.sub (.mul (.mul (.lit 2 1) (.var 5)) (.var 0)) (.mul (.mul (.lit 3333333333333333 10000000000000000) (.var 5)) (.var 0)))),
  .mul (.mul (.lit 1257788237343632 1000000000000000) (.coef 120)) (.xor (.mul (.var 3) (.var 4)) (.sub (.mul (.lit 2 1) (.var 0)) (.mul (.mul (.lit 3333333333333333 10000000000000000) (.var 3)) (.var 0)))),
  .mul (.mul (.lit 7261843774138907 10000000000000000) (.coef 64)) (.xor (.var 4) (.sub (.mul (.lit 2 1) (.var 0)) (.mul (.lit 3333333333333333 10000000000000000) (.var 0)))),
  .mul (.mul (.lit 1257788237343632 1000000000000000) (.coef 114)) (.xor (.var 3) (.sub (.mul (.mul (.lit 2 1) (.var 4)) (.var 0)) (.mul (.mul (.lit 3333333333333333 10000000000000000) (.var 4)) (.var 0)))),
  .mul (.mul (.lit 7261843774138907 10000000000000000) (.coef 57)) (.xor (.var 3) (.sub (.mul (.lit 2 1) (.var 0)) (.mul (.lit 3333333333333333 10000000000000000) (.var 0)))),
  .mul (.mul (.mul (.mul (.mul (.lit 1125 1000) (.coef 90)) (.var 3)) (.var 4)) (.var 5)) (.var 0),
  .mul (.mul (.mul (.mul (.lit 6495190528383289 10000000000000000) (.coef 44)) (.var 4)) (.var 5)) (.var 0),
  .mul (.mul (.mul (.mul (.lit 6495190528383289 10000000000000000) (.coef 41)) (.var 3)) (.var 5)) (.var 0),
  .mul (.mul (.mul (.lit 375 1000) (.coef 17)) (.var 5)) (.var 0),
  .mul (.mul (.mul (.mul (.lit 6495190528383289 10000000000000000) (.coef 35)) (.var 3)) (.var 4)) (.var 0),
  .mul (.mul (.mul (.lit 375 1000) (.coef 13)) (.var 4)) (.var 0),
  .mul (.mul (.mul (.lit 375 1000) (.coef 10)) (.var 3)) (.var 0),
  .mul (.mul (.lit 2165063509461096 10000000000000000) (.coef 1)) (.var 0),
  .mul (.mul (.lit 1257788237343632 1000000000000000) (.coef 152)) (.xor (.mul (.mul (.var 3) (.var 4)) (.var 5)) (.sub (.lit 2 1) (.mul (.mul (.lit 3333333333333333 10000000000000000) (.var 3)) (.var 4)))),
  .mul (.mul (.lit 7261843774138907 10000000000000000) (.coef 77)) (.xor (.mul (.var 4) (.var 5)) (.sub (.lit 2 1) (.mul (.lit 3333333333333333 10000000000000000) (.var 4)))),
  .mul (.mul (.lit 7261843774138907 10000000000000000) (.coef 76)) (.xor (.mul (.var 3) (.var 5)) (.sub (.lit 2 1) (.mul (.lit 3333333333333333 10000000000000000) (.var 3)))),
  .mul (.mul (.lit 4192627457812106 10000000000000000) (.coef 27)) (.xor (.var 5) (.sub (.lit 2 1) (.lit 3333333333333333 10000000000000000))),
  .mul (.mul (.lit 1257788237343632 1000000000000000) (.coef 142)) (.xor (.mul (.var 3) (.var 4)) (.sub (.mul (.lit 2 1) (.var 5)) (.mul (.mul (.lit 3333333333333333 10000000000000000) (.var 3)) (.var 5)))),
  .mul (.mul (.lit 7261843774138907 10000000000000000) (.coef 72)) (.xor (.var 4) (.sub (.mul (.lit 2 1) (.var 5)) (.mul (.lit 3333333333333333 10000000000000000) (.var 5)))),
  .mul (.mul (.lit 1257788237343632 1000000000000000) (.coef 138)) (.xor (.var 3) (.sub (.mul (.mul (.lit 2 1) (.var 4)) (.var 5)) (.mul (.mul (.lit 3333333333333333 10000000000000000) (.var 4)) (.var 5)))),
  .mul (.mul (.lit 7261843774138907 10000000000000000) (.coef 71)) (.xor (.var 3) (.sub (.mul (.lit 2 1) (.var 5)) (.mul (.lit 3333333333333333 10000000000000000) (.var 5)))),
  .mul (.mul (.mul (.mul (.lit 6495190528383289 10000000000000000) (.coef 47)) (.var 3)) (.var 4)) (.var 5),
  .mul (.mul (.mul (.lit 375 1000) (.coef 21)) (.var 4)) (.var 5),
  .mul (.mul (.mul (.lit 375 1000) (.coef 20)) (.var 3)) (.var 5),
  .mul (.mul (.lit 2165063509461096 10000000000000000) (.coef 6)) (.var 5),
  .mul (.mul (.lit 7261843774138907 10000000000000000) (.coef 67)) (.xor (.mul (.var 3) (.var 4)) (.sub (.lit 2 1) (.mul (.lit 3333333333333333 10000000000000000) (.var 3)))),
  .mul (.mul (.lit 4192627457812106 10000000000000000) (.coef 26)) (.xor (.var 4) (.sub (.lit 2 1) (.lit 3333333333333333 10000000000000000))),
  .mul (.mul (.lit 7261843774138907 10000000000000000) (.coef 63)) (.xor (.var 3) (.sub (.mul (.lit 2 1) (.var 4)) (.mul (.lit 3333333333333333 10000000000000000) (.var 4)))),
  .mul (.mul (.mul (.lit 375 1000) (.coef 16)) (.var 3)) (.var 4),
  .mul (.mul (.lit 2165063509461096 10000000000000000) (.coef 5)) (.var 4),
  .mul (.mul (.lit 4192627457812106 10000000000000000) (.coef 25)) (.xor (.var 3) (.sub (.lit 2 1) (.lit 3333333333333333 10000000000000000))),
  .mul (.mul (.lit 2165063509461096 10000000000000000) (.coef 4)) (.var 3),
  .mul (.lit 125 1000) (.coef 0)]

/-- expand6d.py:589-590: an empty `return`. -/
def expand6d3p : Option (List Expr) := none

/-- expand6d.py:596-597: an empty `return`. -/
def expand6d4p : Option (List Expr) := none

/-- expand6d.py:602: `expand_6d`. -/
def expand_6d : List (Option (List Expr)) := [expand6d1p, expand6d2p, expand6d3p, expand6d4p]

/-- modalDG/interpolate.py:44-45, 49-51, ...: the table `expand_1d` ... `expand_6d` of the number of dimensions. -/
def kernels : Nat → Option (List (Option (List Expr)))
  | 1 => some expand_1d
  | 2 => some expand_2d
  | 3 => some expand_3d
  | 4 => some expand_4d
  | 5 => some expand_5d
  | 6 => some expand_6d
  | _ => none

/-- modalDG/interpolate.py:46, 52, ...: `table[int(poly_order - 1)]`; order 0 gives the index -1, the last entry. -/
def kernelAt (table : List (Option (List Expr))) (order : Nat) : Except Err (Option (List Expr)) :=
  match (if order = 0 then table.getLast? else table[order - 1]?) with
  | some k => .ok k
  | none => .error .indexError

section interpolate
variable {F : Type} [_root_.Field F]

/-- The tuples of nodes of the nested loops `for i, x in enumerate(nodes): for j, y in ...` of modalDG/interpolate.py:44-127. -/
def nodeTuples (nodes : List F) : Nat → List (List F)
  | 0 => [[]]
  | n + 1 => nodes.flatMap fun x => (nodeTuples nodes n).map (x :: ·)

/-- modalDG/interpolate.py:44-127: the kernel of the given order is called at every tuple of nodes on all cells (`values`: the
coefficients of each cell).  The array in which the results are put is not modelled: nothing of it leaves the function. -/
def evaluateAll (dim order : Nat) (values : List (List F)) (nodes : List F) : Except Err Unit :=
  match kernels dim with
  | none => .ok ()
  | some table => (nodeTuples nodes dim).forM fun x => do
    let k ← kernelAt table order
    values.forM fun f => do
      let _ ← call k f x

/-- modalDG/interpolate.py:7-132 `interpolate(data, poly_order, nodes)` on a dataset with the given coefficients per cell, with
the nodes it was given or has computed (lines 31-34).  Line 130 calls `data.pushGrid`; `GData` (data/gdata.py) has no
such method, only `push`, so that the call raises an AttributeError. -/
def interpolate (dim order : Nat) (values : List (List F)) (nodes : List F) : Except Err Unit := do
  evaluateAll dim order values nodes
  .error .attributeError

end interpolate

end Pgkyl.ModalDg
