import Verif.Model.Poly
/-!
# The basis functions written out in `data/computeDerivativeMatrices.py`

The polynomials of every `functionVector` of the file, in the order in which they are listed there,
multiplied out; coefficients are the exact values of the decimal literals and of their quotients (in
the code they are rounded to double precision).  Transcribed mechanically from the source text.
-/

namespace Pgkyl.Dg.DerivTables

/-- computeDerivativeMatrices.py:21-21. -/
def modal1p1 : List Poly := [
  [⟨7071067811865468, 10000000000000000, [0]⟩],
  [⟨1224744871391589, 1000000000000000, [1]⟩]]

/-- computeDerivativeMatrices.py:38-44. -/
def modal1p2 : List Poly := [
  [⟨7071067811865468, 10000000000000000, [0]⟩],
  [⟨1224744871391589, 1000000000000000, [1]⟩],
  [⟨-7905694150420951, 10000000000000000, [0]⟩, ⟨2371708245126285, 1000000000000000, [2]⟩]]

/-- computeDerivativeMatrices.py:60-67. -/
def modal1p3 : List Poly := [
  [⟨7071067811865468, 10000000000000000, [0]⟩],
  [⟨1224744871391589, 1000000000000000, [1]⟩],
  [⟨-7905694150420951, 10000000000000000, [0]⟩, ⟨2371708245126285, 1000000000000000, [2]⟩],
  [⟨-2806243040080457, 1000000000000000, [1]⟩, ⟨4677071733467427, 1000000000000000, [3]⟩]]

/-- computeDerivativeMatrices.py:84-96. -/
def modal1p4 : List Poly := [
  [⟨7071067811865468, 10000000000000000, [0]⟩],
  [⟨1224744871391589, 1000000000000000, [1]⟩],
  [⟨-7905694150420951, 10000000000000000, [0]⟩, ⟨2371708245126285, 1000000000000000, [2]⟩],
  [⟨-2806243040080457, 1000000000000000, [1]⟩, ⟨4677071733467427, 1000000000000000, [3]⟩],
  [⟨7954951288348655, 10000000000000000, [0]⟩, ⟨-7954951288348656, 1000000000000000, [2]⟩, ⟨9280776503073431, 1000000000000000, [4]⟩]]

/-- computeDerivativeMatrices.py:121-121. -/
def nodalSer1p1 : List Poly := [
  [⟨5, 10, [0]⟩, ⟨-5, 10, [1]⟩],
  [⟨5, 10, [0]⟩, ⟨5, 10, [1]⟩]]

/-- computeDerivativeMatrices.py:138-140. -/
def nodalSer1p2 : List Poly := [
  [⟨-5, 10, [1]⟩, ⟨5, 10, [2]⟩],
  [⟨1, 1, [0]⟩, ⟨-1, 1, [2]⟩],
  [⟨5, 10, [1]⟩, ⟨5, 10, [2]⟩]]

/-- computeDerivativeMatrices.py:156-173. -/
def nodalSer1p3 : List Poly := [
  [⟨-625, 10000, [0]⟩, ⟨625, 10000, [1]⟩, ⟨5625, 10000, [2]⟩, ⟨-5625, 10000, [3]⟩],
  [⟨5625, 10000, [0]⟩, ⟨-16875, 10000, [1]⟩, ⟨-5625, 10000, [2]⟩, ⟨16875, 10000, [3]⟩],
  [⟨5625, 10000, [0]⟩, ⟨16875, 10000, [1]⟩, ⟨-5625, 10000, [2]⟩, ⟨-16875, 10000, [3]⟩],
  [⟨-625, 10000, [0]⟩, ⟨-625, 10000, [1]⟩, ⟨5625, 10000, [2]⟩, ⟨5625, 10000, [3]⟩]]

/-- computeDerivativeMatrices.py:190-208. -/
def nodalSer1p4 : List Poly := [
  [⟨1, 6, [1]⟩, ⟨-1, 6, [2]⟩, ⟨-2, 3, [3]⟩, ⟨2, 3, [4]⟩],
  [⟨-4, 3, [1]⟩, ⟨8, 3, [2]⟩, ⟨4, 3, [3]⟩, ⟨-8, 3, [4]⟩],
  [⟨1, 1, [0]⟩, ⟨-5, 1, [2]⟩, ⟨4, 1, [4]⟩],
  [⟨4, 3, [1]⟩, ⟨8, 3, [2]⟩, ⟨-4, 3, [3]⟩, ⟨-8, 3, [4]⟩],
  [⟨-1, 6, [1]⟩, ⟨-1, 6, [2]⟩, ⟨2, 3, [3]⟩, ⟨2, 3, [4]⟩]]

/-- computeDerivativeMatrices.py:241-243. -/
def modalMax2p1 : List Poly := [
  [⟨5, 10, [0, 0]⟩],
  [⟨8660254037844385, 10000000000000000, [1, 0]⟩],
  [⟨8660254037844385, 10000000000000000, [0, 1]⟩]]

/-- computeDerivativeMatrices.py:267-276. -/
def modalMax2p2 : List Poly := [
  [⟨5, 10, [0, 0]⟩],
  [⟨8660254037844385, 10000000000000000, [1, 0]⟩],
  [⟨8660254037844385, 10000000000000000, [0, 1]⟩],
  [⟨15, 10, [1, 1]⟩],
  [⟨-5590169943749485, 10000000000000000, [0, 0]⟩, ⟨1677050983124845, 1000000000000000, [2, 0]⟩],
  [⟨-5590169943749485, 10000000000000000, [0, 0]⟩, ⟨1677050983124845, 1000000000000000, [0, 2]⟩]]

/-- computeDerivativeMatrices.py:300-313. -/
def modalMax2p3 : List Poly := [
  [⟨5, 10, [0, 0]⟩],
  [⟨8660254037844385, 10000000000000000, [1, 0]⟩],
  [⟨8660254037844385, 10000000000000000, [0, 1]⟩],
  [⟨15, 10, [1, 1]⟩],
  [⟨-5590169943749485, 10000000000000000, [0, 0]⟩, ⟨1677050983124845, 1000000000000000, [2, 0]⟩],
  [⟨-5590169943749485, 10000000000000000, [0, 0]⟩, ⟨1677050983124845, 1000000000000000, [0, 2]⟩],
  [⟨-9682458365518544, 10000000000000000, [0, 1]⟩, ⟨2904737509655563, 1000000000000000, [2, 1]⟩],
  [⟨-9682458365518544, 10000000000000000, [1, 0]⟩, ⟨2904737509655563, 1000000000000000, [1, 2]⟩],
  [⟨-1984313483298442, 1000000000000000, [1, 0]⟩, ⟨3307189138830737, 1000000000000000, [3, 0]⟩],
  [⟨-1984313483298442, 1000000000000000, [0, 1]⟩, ⟨3307189138830737, 1000000000000000, [0, 3]⟩]]

/-- computeDerivativeMatrices.py:337-355. -/
def modalMax2p4 : List Poly := [
  [⟨5, 10, [0, 0]⟩],
  [⟨8660254037844385, 10000000000000000, [1, 0]⟩],
  [⟨8660254037844385, 10000000000000000, [0, 1]⟩],
  [⟨15, 10, [1, 1]⟩],
  [⟨-5590169943749485, 10000000000000000, [0, 0]⟩, ⟨1677050983124845, 1000000000000000, [2, 0]⟩],
  [⟨-5590169943749485, 10000000000000000, [0, 0]⟩, ⟨1677050983124845, 1000000000000000, [0, 2]⟩],
  [⟨-9682458365518544, 10000000000000000, [0, 1]⟩, ⟨2904737509655563, 1000000000000000, [2, 1]⟩],
  [⟨-9682458365518544, 10000000000000000, [1, 0]⟩, ⟨2904737509655563, 1000000000000000, [1, 2]⟩],
  [⟨-1984313483298442, 1000000000000000, [1, 0]⟩, ⟨3307189138830737, 1000000000000000, [3, 0]⟩],
  [⟨-1984313483298442, 1000000000000000, [0, 1]⟩, ⟨3307189138830737, 1000000000000000, [0, 3]⟩],
  [⟨625, 1000, [0, 0]⟩, ⟨-1875, 1000, [0, 2]⟩, ⟨-1875, 1000, [2, 0]⟩, ⟨5625, 1000, [2, 2]⟩],
  [⟨-3436931771216875, 1000000000000000, [1, 1]⟩, ⟨5728219618694792, 1000000000000000, [3, 1]⟩],
  [⟨-3436931771216875, 1000000000000000, [1, 1]⟩, ⟨5728219618694792, 1000000000000000, [1, 3]⟩],
  [⟨5625, 10000, [0, 0]⟩, ⟨-5625, 1000, [2, 0]⟩, ⟨65625, 10000, [4, 0]⟩],
  [⟨5625, 10000, [0, 0]⟩, ⟨-5625, 1000, [0, 2]⟩, ⟨65625, 10000, [0, 4]⟩]]

/-- computeDerivativeMatrices.py:386-388. -/
def modalSer2p1 : List Poly := [
  [⟨5, 10, [0, 0]⟩],
  [⟨8660254037844385, 10000000000000000, [1, 0]⟩],
  [⟨8660254037844385, 10000000000000000, [0, 1]⟩],
  [⟨15, 10, [1, 1]⟩]]

/-- computeDerivativeMatrices.py:412-423. -/
def modalSer2p2 : List Poly := [
  [⟨5, 10, [0, 0]⟩],
  [⟨8660254037844385, 10000000000000000, [1, 0]⟩],
  [⟨8660254037844385, 10000000000000000, [0, 1]⟩],
  [⟨15, 10, [1, 1]⟩],
  [⟨-5590169943749485, 10000000000000000, [0, 0]⟩, ⟨1677050983124845, 1000000000000000, [2, 0]⟩],
  [⟨-5590169943749485, 10000000000000000, [0, 0]⟩, ⟨1677050983124845, 1000000000000000, [0, 2]⟩],
  [⟨-9682458365518544, 10000000000000000, [0, 1]⟩, ⟨2904737509655563, 1000000000000000, [2, 1]⟩],
  [⟨-9682458365518544, 10000000000000000, [1, 0]⟩, ⟨2904737509655563, 1000000000000000, [1, 2]⟩]]

/-- computeDerivativeMatrices.py:447-462. -/
def modalSer2p3 : List Poly := [
  [⟨5, 10, [0, 0]⟩],
  [⟨8660254037844385, 10000000000000000, [1, 0]⟩],
  [⟨8660254037844385, 10000000000000000, [0, 1]⟩],
  [⟨15, 10, [1, 1]⟩],
  [⟨-5590169943749485, 10000000000000000, [0, 0]⟩, ⟨1677050983124845, 1000000000000000, [2, 0]⟩],
  [⟨-5590169943749485, 10000000000000000, [0, 0]⟩, ⟨1677050983124845, 1000000000000000, [0, 2]⟩],
  [⟨-9682458365518544, 10000000000000000, [0, 1]⟩, ⟨2904737509655563, 1000000000000000, [2, 1]⟩],
  [⟨-9682458365518544, 10000000000000000, [1, 0]⟩, ⟨2904737509655563, 1000000000000000, [1, 2]⟩],
  [⟨-1984313483298442, 1000000000000000, [1, 0]⟩, ⟨3307189138830737, 1000000000000000, [3, 0]⟩],
  [⟨-1984313483298442, 1000000000000000, [0, 1]⟩, ⟨3307189138830737, 1000000000000000, [0, 3]⟩],
  [⟨-3436931771216875, 1000000000000000, [1, 1]⟩, ⟨5728219618694792, 1000000000000000, [3, 1]⟩],
  [⟨-3436931771216875, 1000000000000000, [1, 1]⟩, ⟨5728219618694792, 1000000000000000, [1, 3]⟩]]

/-- computeDerivativeMatrices.py:486-514. -/
def modalSer2p4 : List Poly := [
  [⟨5, 10, [0, 0]⟩],
  [⟨8660254037844385, 10000000000000000, [1, 0]⟩],
  [⟨8660254037844385, 10000000000000000, [0, 1]⟩],
  [⟨15, 10, [1, 1]⟩],
  [⟨-5590169943749485, 10000000000000000, [0, 0]⟩, ⟨1677050983124845, 1000000000000000, [2, 0]⟩],
  [⟨-5590169943749485, 10000000000000000, [0, 0]⟩, ⟨1677050983124845, 1000000000000000, [0, 2]⟩],
  [⟨-9682458365518544, 10000000000000000, [0, 1]⟩, ⟨2904737509655563, 1000000000000000, [2, 1]⟩],
  [⟨-9682458365518544, 10000000000000000, [1, 0]⟩, ⟨2904737509655563, 1000000000000000, [1, 2]⟩],
  [⟨-1984313483298442, 1000000000000000, [1, 0]⟩, ⟨3307189138830737, 1000000000000000, [3, 0]⟩],
  [⟨-1984313483298442, 1000000000000000, [0, 1]⟩, ⟨3307189138830737, 1000000000000000, [0, 3]⟩],
  [⟨625, 1000, [0, 0]⟩, ⟨-1875, 1000, [0, 2]⟩, ⟨-1875, 1000, [2, 0]⟩, ⟨5625, 1000, [2, 2]⟩],
  [⟨-3436931771216875, 1000000000000000, [1, 1]⟩, ⟨5728219618694792, 1000000000000000, [3, 1]⟩],
  [⟨-3436931771216875, 1000000000000000, [1, 1]⟩, ⟨5728219618694792, 1000000000000000, [1, 3]⟩],
  [⟨5625, 10000, [0, 0]⟩, ⟨-5625, 1000, [2, 0]⟩, ⟨65625, 10000, [4, 0]⟩],
  [⟨5625, 10000, [0, 0]⟩, ⟨-5625, 1000, [0, 2]⟩, ⟨65625, 10000, [0, 4]⟩],
  [⟨9742785792574921, 10000000000000000, [0, 1]⟩, ⟨-974278579257492, 100000000000000, [2, 1]⟩, ⟨1136658342467074, 100000000000000, [4, 1]⟩],
  [⟨9742785792574921, 10000000000000000, [1, 0]⟩, ⟨-974278579257492, 100000000000000, [1, 2]⟩, ⟨1136658342467074, 100000000000000, [1, 4]⟩]]

/-- computeDerivativeMatrices.py:545-552. -/
def nodalSer2p1 : List Poly := [
  [⟨25, 100, [0, 0]⟩, ⟨-25, 100, [0, 1]⟩, ⟨-25, 100, [1, 0]⟩, ⟨25, 100, [1, 1]⟩],
  [⟨25, 100, [0, 0]⟩, ⟨-25, 100, [0, 1]⟩, ⟨25, 100, [1, 0]⟩, ⟨-25, 100, [1, 1]⟩],
  [⟨25, 100, [0, 0]⟩, ⟨25, 100, [0, 1]⟩, ⟨-25, 100, [1, 0]⟩, ⟨-25, 100, [1, 1]⟩],
  [⟨25, 100, [0, 0]⟩, ⟨25, 100, [0, 1]⟩, ⟨25, 100, [1, 0]⟩, ⟨25, 100, [1, 1]⟩]]

/-- computeDerivativeMatrices.py:576-615. -/
def nodalSer2p2 : List Poly := [
  [⟨-25, 100, [0, 0]⟩, ⟨25, 100, [0, 2]⟩, ⟨25, 100, [1, 1]⟩, ⟨-25, 100, [1, 2]⟩, ⟨25, 100, [2, 0]⟩, ⟨-25, 100, [2, 1]⟩],
  [⟨5, 10, [0, 0]⟩, ⟨-5, 10, [0, 1]⟩, ⟨-5, 10, [2, 0]⟩, ⟨5, 10, [2, 1]⟩],
  [⟨-25, 100, [0, 0]⟩, ⟨25, 100, [0, 2]⟩, ⟨-25, 100, [1, 1]⟩, ⟨25, 100, [1, 2]⟩, ⟨25, 100, [2, 0]⟩, ⟨-25, 100, [2, 1]⟩],
  [⟨5, 10, [0, 0]⟩, ⟨-5, 10, [0, 2]⟩, ⟨-5, 10, [1, 0]⟩, ⟨5, 10, [1, 2]⟩],
  [⟨5, 10, [0, 0]⟩, ⟨-5, 10, [0, 2]⟩, ⟨5, 10, [1, 0]⟩, ⟨-5, 10, [1, 2]⟩],
  [⟨-25, 100, [0, 0]⟩, ⟨25, 100, [0, 2]⟩, ⟨-25, 100, [1, 1]⟩, ⟨-25, 100, [1, 2]⟩, ⟨25, 100, [2, 0]⟩, ⟨25, 100, [2, 1]⟩],
  [⟨5, 10, [0, 0]⟩, ⟨5, 10, [0, 1]⟩, ⟨-5, 10, [2, 0]⟩, ⟨-5, 10, [2, 1]⟩],
  [⟨-25, 100, [0, 0]⟩, ⟨25, 100, [0, 2]⟩, ⟨25, 100, [1, 1]⟩, ⟨25, 100, [1, 2]⟩, ⟨25, 100, [2, 0]⟩, ⟨25, 100, [2, 1]⟩]]

/-- computeDerivativeMatrices.py:656-663. -/
def modalMax3p1 : List Poly := [
  [⟨3535533905932734, 10000000000000000, [0, 0, 0]⟩],
  [⟨6123724356957931, 10000000000000000, [1, 0, 0]⟩],
  [⟨6123724356957931, 10000000000000000, [0, 1, 0]⟩],
  [⟨6123724356957931, 10000000000000000, [0, 0, 1]⟩]]

/-- computeDerivativeMatrices.py:698-711. -/
def modalMax3p2 : List Poly := [
  [⟨3535533905932734, 10000000000000000, [0, 0, 0]⟩],
  [⟨6123724356957931, 10000000000000000, [1, 0, 0]⟩],
  [⟨6123724356957931, 10000000000000000, [0, 1, 0]⟩],
  [⟨6123724356957931, 10000000000000000, [0, 0, 1]⟩],
  [⟨1060660171779822, 1000000000000000, [1, 1, 0]⟩],
  [⟨1060660171779822, 1000000000000000, [1, 0, 1]⟩],
  [⟨1060660171779822, 1000000000000000, [0, 1, 1]⟩],
  [⟨-3952847075210471, 10000000000000000, [0, 0, 0]⟩, ⟨1185854122563141, 1000000000000000, [2, 0, 0]⟩],
  [⟨-3952847075210471, 10000000000000000, [0, 0, 0]⟩, ⟨1185854122563141, 1000000000000000, [0, 2, 0]⟩],
  [⟨-3952847075210471, 10000000000000000, [0, 0, 0]⟩, ⟨1185854122563141, 1000000000000000, [0, 0, 2]⟩]]

/-- computeDerivativeMatrices.py:746-769. -/
def modalMax3p3 : List Poly := [
  [⟨3535533905932734, 10000000000000000, [0, 0, 0]⟩],
  [⟨6123724356957931, 10000000000000000, [1, 0, 0]⟩],
  [⟨6123724356957931, 10000000000000000, [0, 1, 0]⟩],
  [⟨6123724356957931, 10000000000000000, [0, 0, 1]⟩],
  [⟨1060660171779822, 1000000000000000, [1, 1, 0]⟩],
  [⟨1060660171779822, 1000000000000000, [1, 0, 1]⟩],
  [⟨1060660171779822, 1000000000000000, [0, 1, 1]⟩],
  [⟨-3952847075210471, 10000000000000000, [0, 0, 0]⟩, ⟨1185854122563141, 1000000000000000, [2, 0, 0]⟩],
  [⟨-3952847075210471, 10000000000000000, [0, 0, 0]⟩, ⟨1185854122563141, 1000000000000000, [0, 2, 0]⟩],
  [⟨-3952847075210471, 10000000000000000, [0, 0, 0]⟩, ⟨1185854122563141, 1000000000000000, [0, 0, 2]⟩],
  [⟨1837117307087383, 1000000000000000, [1, 1, 1]⟩],
  [⟨-6846531968814578, 10000000000000000, [0, 1, 0]⟩, ⟨2053959590644373, 1000000000000000, [2, 1, 0]⟩],
  [⟨-6846531968814578, 10000000000000000, [1, 0, 0]⟩, ⟨2053959590644373, 1000000000000000, [1, 2, 0]⟩],
  [⟨-6846531968814578, 10000000000000000, [0, 0, 1]⟩, ⟨2053959590644373, 1000000000000000, [2, 0, 1]⟩],
  [⟨-6846531968814578, 10000000000000000, [0, 0, 1]⟩, ⟨2053959590644373, 1000000000000000, [0, 2, 1]⟩],
  [⟨-6846531968814578, 10000000000000000, [1, 0, 0]⟩, ⟨2053959590644373, 1000000000000000, [1, 0, 2]⟩],
  [⟨-6846531968814578, 10000000000000000, [0, 1, 0]⟩, ⟨2053959590644373, 1000000000000000, [0, 1, 2]⟩],
  [⟨-1403121520040228, 1000000000000000, [1, 0, 0]⟩, ⟨2338535866733713, 1000000000000000, [3, 0, 0]⟩],
  [⟨-1403121520040228, 1000000000000000, [0, 1, 0]⟩, ⟨2338535866733713, 1000000000000000, [0, 3, 0]⟩],
  [⟨-1403121520040228, 1000000000000000, [0, 0, 1]⟩, ⟨2338535866733713, 1000000000000000, [0, 0, 3]⟩]]

/-- computeDerivativeMatrices.py:804-869. -/
def modalMax3p4 : List Poly := [
  [⟨3535533905932734, 10000000000000000, [0, 0, 0]⟩],
  [⟨6123724356957931, 10000000000000000, [1, 0, 0]⟩],
  [⟨6123724356957931, 10000000000000000, [0, 1, 0]⟩],
  [⟨6123724356957931, 10000000000000000, [0, 0, 1]⟩],
  [⟨1060660171779822, 1000000000000000, [1, 1, 0]⟩],
  [⟨1060660171779822, 1000000000000000, [1, 0, 1]⟩],
  [⟨1060660171779822, 1000000000000000, [0, 1, 1]⟩],
  [⟨-3952847075210471, 10000000000000000, [0, 0, 0]⟩, ⟨1185854122563141, 1000000000000000, [2, 0, 0]⟩],
  [⟨-3952847075210471, 10000000000000000, [0, 0, 0]⟩, ⟨1185854122563141, 1000000000000000, [0, 2, 0]⟩],
  [⟨-3952847075210471, 10000000000000000, [0, 0, 0]⟩, ⟨1185854122563141, 1000000000000000, [0, 0, 2]⟩],
  [⟨1837117307087383, 1000000000000000, [1, 1, 1]⟩],
  [⟨-6846531968814578, 10000000000000000, [0, 1, 0]⟩, ⟨2053959590644373, 1000000000000000, [2, 1, 0]⟩],
  [⟨-6846531968814578, 10000000000000000, [1, 0, 0]⟩, ⟨2053959590644373, 1000000000000000, [1, 2, 0]⟩],
  [⟨-6846531968814578, 10000000000000000, [0, 0, 1]⟩, ⟨2053959590644373, 1000000000000000, [2, 0, 1]⟩],
  [⟨-6846531968814578, 10000000000000000, [0, 0, 1]⟩, ⟨2053959590644373, 1000000000000000, [0, 2, 1]⟩],
  [⟨-6846531968814578, 10000000000000000, [1, 0, 0]⟩, ⟨2053959590644373, 1000000000000000, [1, 0, 2]⟩],
  [⟨-6846531968814578, 10000000000000000, [0, 1, 0]⟩, ⟨2053959590644373, 1000000000000000, [0, 1, 2]⟩],
  [⟨-1403121520040228, 1000000000000000, [1, 0, 0]⟩, ⟨2338535866733713, 1000000000000000, [3, 0, 0]⟩],
  [⟨-1403121520040228, 1000000000000000, [0, 1, 0]⟩, ⟨2338535866733713, 1000000000000000, [0, 3, 0]⟩],
  [⟨-1403121520040228, 1000000000000000, [0, 0, 1]⟩, ⟨2338535866733713, 1000000000000000, [0, 0, 3]⟩],
  [⟨-1185854122563141, 1000000000000000, [0, 1, 1]⟩, ⟨3557562367689424, 1000000000000000, [2, 1, 1]⟩],
  [⟨-1185854122563141, 1000000000000000, [1, 0, 1]⟩, ⟨3557562367689424, 1000000000000000, [1, 2, 1]⟩],
  [⟨-1185854122563141, 1000000000000000, [1, 1, 0]⟩, ⟨3557562367689424, 1000000000000000, [1, 1, 2]⟩],
  [⟨4419417382415923, 10000000000000000, [0, 0, 0]⟩, ⟨-1325825214724777, 1000000000000000, [0, 2, 0]⟩, ⟨-1325825214724777, 1000000000000000, [2, 0, 0]⟩, ⟨3977475644174331, 1000000000000000, [2, 2, 0]⟩],
  [⟨4419417382415923, 10000000000000000, [0, 0, 0]⟩, ⟨-1325825214724777, 1000000000000000, [0, 0, 2]⟩, ⟨-1325825214724777, 1000000000000000, [2, 0, 0]⟩, ⟨3977475644174331, 1000000000000000, [2, 0, 2]⟩],
  [⟨4419417382415923, 10000000000000000, [0, 0, 0]⟩, ⟨-1325825214724777, 1000000000000000, [0, 0, 2]⟩, ⟨-1325825214724777, 1000000000000000, [0, 2, 0]⟩, ⟨3977475644174331, 1000000000000000, [0, 2, 2]⟩],
  [⟨-2430277761902947, 1000000000000000, [1, 1, 0]⟩, ⟨4050462936504911, 1000000000000000, [3, 1, 0]⟩],
  [⟨-2430277761902947, 1000000000000000, [1, 1, 0]⟩, ⟨4050462936504911, 1000000000000000, [1, 3, 0]⟩],
  [⟨-2430277761902947, 1000000000000000, [1, 0, 1]⟩, ⟨4050462936504911, 1000000000000000, [3, 0, 1]⟩],
  [⟨-2430277761902947, 1000000000000000, [0, 1, 1]⟩, ⟨4050462936504911, 1000000000000000, [0, 3, 1]⟩],
  [⟨-2430277761902947, 1000000000000000, [1, 0, 1]⟩, ⟨4050462936504911, 1000000000000000, [1, 0, 3]⟩],
  [⟨-2430277761902947, 1000000000000000, [0, 1, 1]⟩, ⟨4050462936504911, 1000000000000000, [0, 1, 3]⟩],
  [⟨3977475644174325, 10000000000000000, [0, 0, 0]⟩, ⟨-3977475644174326, 1000000000000000, [2, 0, 0]⟩, ⟨4640388251536713, 1000000000000000, [4, 0, 0]⟩],
  [⟨3977475644174325, 10000000000000000, [0, 0, 0]⟩, ⟨-3977475644174326, 1000000000000000, [0, 2, 0]⟩, ⟨4640388251536713, 1000000000000000, [0, 4, 0]⟩],
  [⟨3977475644174325, 10000000000000000, [0, 0, 0]⟩, ⟨-3977475644174326, 1000000000000000, [0, 0, 2]⟩, ⟨4640388251536713, 1000000000000000, [0, 0, 4]⟩]]

/-- computeDerivativeMatrices.py:912-923. -/
def modalSer3p1 : List Poly := [
  [⟨3535533905932734, 10000000000000000, [0, 0, 0]⟩],
  [⟨6123724356957931, 10000000000000000, [1, 0, 0]⟩],
  [⟨6123724356957931, 10000000000000000, [0, 1, 0]⟩],
  [⟨6123724356957931, 10000000000000000, [0, 0, 1]⟩],
  [⟨1060660171779822, 1000000000000000, [1, 1, 0]⟩],
  [⟨1060660171779822, 1000000000000000, [1, 0, 1]⟩],
  [⟨1060660171779822, 1000000000000000, [0, 1, 1]⟩],
  [⟨1837117307087383, 1000000000000000, [1, 1, 1]⟩]]

/-- computeDerivativeMatrices.py:958-981. -/
def modalSer3p2 : List Poly := [
  [⟨3535533905932734, 10000000000000000, [0, 0, 0]⟩],
  [⟨6123724356957931, 10000000000000000, [1, 0, 0]⟩],
  [⟨6123724356957931, 10000000000000000, [0, 1, 0]⟩],
  [⟨6123724356957931, 10000000000000000, [0, 0, 1]⟩],
  [⟨1060660171779822, 1000000000000000, [1, 1, 0]⟩],
  [⟨1060660171779822, 1000000000000000, [1, 0, 1]⟩],
  [⟨1060660171779822, 1000000000000000, [0, 1, 1]⟩],
  [⟨-3952847075210471, 10000000000000000, [0, 0, 0]⟩, ⟨1185854122563141, 1000000000000000, [2, 0, 0]⟩],
  [⟨-3952847075210471, 10000000000000000, [0, 0, 0]⟩, ⟨1185854122563141, 1000000000000000, [0, 2, 0]⟩],
  [⟨-3952847075210471, 10000000000000000, [0, 0, 0]⟩, ⟨1185854122563141, 1000000000000000, [0, 0, 2]⟩],
  [⟨1837117307087383, 1000000000000000, [1, 1, 1]⟩],
  [⟨-6846531968814578, 10000000000000000, [0, 1, 0]⟩, ⟨2053959590644373, 1000000000000000, [2, 1, 0]⟩],
  [⟨-6846531968814578, 10000000000000000, [1, 0, 0]⟩, ⟨2053959590644373, 1000000000000000, [1, 2, 0]⟩],
  [⟨-6846531968814578, 10000000000000000, [0, 0, 1]⟩, ⟨2053959590644373, 1000000000000000, [2, 0, 1]⟩],
  [⟨-6846531968814578, 10000000000000000, [0, 0, 1]⟩, ⟨2053959590644373, 1000000000000000, [0, 2, 1]⟩],
  [⟨-6846531968814578, 10000000000000000, [1, 0, 0]⟩, ⟨2053959590644373, 1000000000000000, [1, 0, 2]⟩],
  [⟨-6846531968814578, 10000000000000000, [0, 1, 0]⟩, ⟨2053959590644373, 1000000000000000, [0, 1, 2]⟩],
  [⟨-1185854122563141, 1000000000000000, [0, 1, 1]⟩, ⟨3557562367689424, 1000000000000000, [2, 1, 1]⟩],
  [⟨-1185854122563141, 1000000000000000, [1, 0, 1]⟩, ⟨3557562367689424, 1000000000000000, [1, 2, 1]⟩],
  [⟨-1185854122563141, 1000000000000000, [1, 1, 0]⟩, ⟨3557562367689424, 1000000000000000, [1, 1, 2]⟩]]

/-- computeDerivativeMatrices.py:1016-1051. -/
def modalSer3p3 : List Poly := [
  [⟨3535533905932734, 10000000000000000, [0, 0, 0]⟩],
  [⟨6123724356957931, 10000000000000000, [1, 0, 0]⟩],
  [⟨6123724356957931, 10000000000000000, [0, 1, 0]⟩],
  [⟨6123724356957931, 10000000000000000, [0, 0, 1]⟩],
  [⟨1060660171779822, 1000000000000000, [1, 1, 0]⟩],
  [⟨1060660171779822, 1000000000000000, [1, 0, 1]⟩],
  [⟨1060660171779822, 1000000000000000, [0, 1, 1]⟩],
  [⟨-3952847075210471, 10000000000000000, [0, 0, 0]⟩, ⟨1185854122563141, 1000000000000000, [2, 0, 0]⟩],
  [⟨-3952847075210471, 10000000000000000, [0, 0, 0]⟩, ⟨1185854122563141, 1000000000000000, [0, 2, 0]⟩],
  [⟨-3952847075210471, 10000000000000000, [0, 0, 0]⟩, ⟨1185854122563141, 1000000000000000, [0, 0, 2]⟩],
  [⟨1837117307087383, 1000000000000000, [1, 1, 1]⟩],
  [⟨-6846531968814578, 10000000000000000, [0, 1, 0]⟩, ⟨2053959590644373, 1000000000000000, [2, 1, 0]⟩],
  [⟨-6846531968814578, 10000000000000000, [1, 0, 0]⟩, ⟨2053959590644373, 1000000000000000, [1, 2, 0]⟩],
  [⟨-6846531968814578, 10000000000000000, [0, 0, 1]⟩, ⟨2053959590644373, 1000000000000000, [2, 0, 1]⟩],
  [⟨-6846531968814578, 10000000000000000, [0, 0, 1]⟩, ⟨2053959590644373, 1000000000000000, [0, 2, 1]⟩],
  [⟨-6846531968814578, 10000000000000000, [1, 0, 0]⟩, ⟨2053959590644373, 1000000000000000, [1, 0, 2]⟩],
  [⟨-6846531968814578, 10000000000000000, [0, 1, 0]⟩, ⟨2053959590644373, 1000000000000000, [0, 1, 2]⟩],
  [⟨-1403121520040228, 1000000000000000, [1, 0, 0]⟩, ⟨2338535866733713, 1000000000000000, [3, 0, 0]⟩],
  [⟨-1403121520040228, 1000000000000000, [0, 1, 0]⟩, ⟨2338535866733713, 1000000000000000, [0, 3, 0]⟩],
  [⟨-1403121520040228, 1000000000000000, [0, 0, 1]⟩, ⟨2338535866733713, 1000000000000000, [0, 0, 3]⟩],
  [⟨-1185854122563141, 1000000000000000, [0, 1, 1]⟩, ⟨3557562367689424, 1000000000000000, [2, 1, 1]⟩],
  [⟨-1185854122563141, 1000000000000000, [1, 0, 1]⟩, ⟨3557562367689424, 1000000000000000, [1, 2, 1]⟩],
  [⟨-1185854122563141, 1000000000000000, [1, 1, 0]⟩, ⟨3557562367689424, 1000000000000000, [1, 1, 2]⟩],
  [⟨-2430277761902947, 1000000000000000, [1, 1, 0]⟩, ⟨4050462936504911, 1000000000000000, [3, 1, 0]⟩],
  [⟨-2430277761902947, 1000000000000000, [1, 1, 0]⟩, ⟨4050462936504911, 1000000000000000, [1, 3, 0]⟩],
  [⟨-2430277761902947, 1000000000000000, [1, 0, 1]⟩, ⟨4050462936504911, 1000000000000000, [3, 0, 1]⟩],
  [⟨-2430277761902947, 1000000000000000, [0, 1, 1]⟩, ⟨4050462936504911, 1000000000000000, [0, 3, 1]⟩],
  [⟨-2430277761902947, 1000000000000000, [1, 0, 1]⟩, ⟨4050462936504911, 1000000000000000, [1, 0, 3]⟩],
  [⟨-2430277761902947, 1000000000000000, [0, 1, 1]⟩, ⟨4050462936504911, 1000000000000000, [0, 1, 3]⟩],
  [⟨-4209364560120682, 1000000000000000, [1, 1, 1]⟩, ⟨7015607600201137, 1000000000000000, [3, 1, 1]⟩],
  [⟨-4209364560120682, 1000000000000000, [1, 1, 1]⟩, ⟨7015607600201137, 1000000000000000, [1, 3, 1]⟩],
  [⟨-4209364560120682, 1000000000000000, [1, 1, 1]⟩, ⟨7015607600201137, 1000000000000000, [1, 1, 3]⟩]]

/-- computeDerivativeMatrices.py:1086-1217. -/
def modalSer3p4 : List Poly := [
  [⟨3535533905932734, 10000000000000000, [0, 0, 0]⟩],
  [⟨6123724356957931, 10000000000000000, [1, 0, 0]⟩],
  [⟨6123724356957931, 10000000000000000, [0, 1, 0]⟩],
  [⟨6123724356957931, 10000000000000000, [0, 0, 1]⟩],
  [⟨1060660171779822, 1000000000000000, [1, 1, 0]⟩],
  [⟨1060660171779822, 1000000000000000, [1, 0, 1]⟩],
  [⟨1060660171779822, 1000000000000000, [0, 1, 1]⟩],
  [⟨-3952847075210471, 10000000000000000, [0, 0, 0]⟩, ⟨1185854122563141, 1000000000000000, [2, 0, 0]⟩],
  [⟨-3952847075210471, 10000000000000000, [0, 0, 0]⟩, ⟨1185854122563141, 1000000000000000, [0, 2, 0]⟩],
  [⟨-3952847075210471, 10000000000000000, [0, 0, 0]⟩, ⟨1185854122563141, 1000000000000000, [0, 0, 2]⟩],
  [⟨1837117307087383, 1000000000000000, [1, 1, 1]⟩],
  [⟨-6846531968814578, 10000000000000000, [0, 1, 0]⟩, ⟨2053959590644373, 1000000000000000, [2, 1, 0]⟩],
  [⟨-6846531968814578, 10000000000000000, [1, 0, 0]⟩, ⟨2053959590644373, 1000000000000000, [1, 2, 0]⟩],
  [⟨-6846531968814578, 10000000000000000, [0, 0, 1]⟩, ⟨2053959590644373, 1000000000000000, [2, 0, 1]⟩],
  [⟨-6846531968814578, 10000000000000000, [0, 0, 1]⟩, ⟨2053959590644373, 1000000000000000, [0, 2, 1]⟩],
  [⟨-6846531968814578, 10000000000000000, [1, 0, 0]⟩, ⟨2053959590644373, 1000000000000000, [1, 0, 2]⟩],
  [⟨-6846531968814578, 10000000000000000, [0, 1, 0]⟩, ⟨2053959590644373, 1000000000000000, [0, 1, 2]⟩],
  [⟨-1403121520040228, 1000000000000000, [1, 0, 0]⟩, ⟨2338535866733713, 1000000000000000, [3, 0, 0]⟩],
  [⟨-1403121520040228, 1000000000000000, [0, 1, 0]⟩, ⟨2338535866733713, 1000000000000000, [0, 3, 0]⟩],
  [⟨-1403121520040228, 1000000000000000, [0, 0, 1]⟩, ⟨2338535866733713, 1000000000000000, [0, 0, 3]⟩],
  [⟨-1185854122563141, 1000000000000000, [0, 1, 1]⟩, ⟨3557562367689424, 1000000000000000, [2, 1, 1]⟩],
  [⟨-1185854122563141, 1000000000000000, [1, 0, 1]⟩, ⟨3557562367689424, 1000000000000000, [1, 2, 1]⟩],
  [⟨-1185854122563141, 1000000000000000, [1, 1, 0]⟩, ⟨3557562367689424, 1000000000000000, [1, 1, 2]⟩],
  [⟨4419417382415923, 10000000000000000, [0, 0, 0]⟩, ⟨-1325825214724777, 1000000000000000, [0, 2, 0]⟩, ⟨-1325825214724777, 1000000000000000, [2, 0, 0]⟩, ⟨3977475644174331, 1000000000000000, [2, 2, 0]⟩],
  [⟨4419417382415923, 10000000000000000, [0, 0, 0]⟩, ⟨-1325825214724777, 1000000000000000, [0, 0, 2]⟩, ⟨-1325825214724777, 1000000000000000, [2, 0, 0]⟩, ⟨3977475644174331, 1000000000000000, [2, 0, 2]⟩],
  [⟨4419417382415923, 10000000000000000, [0, 0, 0]⟩, ⟨-1325825214724777, 1000000000000000, [0, 0, 2]⟩, ⟨-1325825214724777, 1000000000000000, [0, 2, 0]⟩, ⟨3977475644174331, 1000000000000000, [0, 2, 2]⟩],
  [⟨-2430277761902947, 1000000000000000, [1, 1, 0]⟩, ⟨4050462936504911, 1000000000000000, [3, 1, 0]⟩],
  [⟨-2430277761902947, 1000000000000000, [1, 1, 0]⟩, ⟨4050462936504911, 1000000000000000, [1, 3, 0]⟩],
  [⟨-2430277761902947, 1000000000000000, [1, 0, 1]⟩, ⟨4050462936504911, 1000000000000000, [3, 0, 1]⟩],
  [⟨-2430277761902947, 1000000000000000, [0, 1, 1]⟩, ⟨4050462936504911, 1000000000000000, [0, 3, 1]⟩],
  [⟨-2430277761902947, 1000000000000000, [1, 0, 1]⟩, ⟨4050462936504911, 1000000000000000, [1, 0, 3]⟩],
  [⟨-2430277761902947, 1000000000000000, [0, 1, 1]⟩, ⟨4050462936504911, 1000000000000000, [0, 1, 3]⟩],
  [⟨3977475644174325, 10000000000000000, [0, 0, 0]⟩, ⟨-3977475644174326, 1000000000000000, [2, 0, 0]⟩, ⟨4640388251536713, 1000000000000000, [4, 0, 0]⟩],
  [⟨3977475644174325, 10000000000000000, [0, 0, 0]⟩, ⟨-3977475644174326, 1000000000000000, [0, 2, 0]⟩, ⟨4640388251536713, 1000000000000000, [0, 4, 0]⟩],
  [⟨3977475644174325, 10000000000000000, [0, 0, 0]⟩, ⟨-3977475644174326, 1000000000000000, [0, 0, 2]⟩, ⟨4640388251536713, 1000000000000000, [0, 0, 4]⟩],
  [⟨7654655446197414, 10000000000000000, [0, 0, 1]⟩, ⟨-2296396633859224, 1000000000000000, [0, 2, 1]⟩, ⟨-2296396633859224, 1000000000000000, [2, 0, 1]⟩, ⟨6889189901577672, 1000000000000000, [2, 2, 1]⟩],
  [⟨7654655446197414, 10000000000000000, [0, 1, 0]⟩, ⟨-2296396633859224, 1000000000000000, [0, 1, 2]⟩, ⟨-2296396633859224, 1000000000000000, [2, 1, 0]⟩, ⟨6889189901577672, 1000000000000000, [2, 1, 2]⟩],
  [⟨7654655446197414, 10000000000000000, [1, 0, 0]⟩, ⟨-2296396633859224, 1000000000000000, [1, 0, 2]⟩, ⟨-2296396633859224, 1000000000000000, [1, 2, 0]⟩, ⟨6889189901577672, 1000000000000000, [1, 2, 2]⟩],
  [⟨-4209364560120682, 1000000000000000, [1, 1, 1]⟩, ⟨7015607600201137, 1000000000000000, [3, 1, 1]⟩],
  [⟨-4209364560120682, 1000000000000000, [1, 1, 1]⟩, ⟨7015607600201137, 1000000000000000, [1, 3, 1]⟩],
  [⟨-4209364560120682, 1000000000000000, [1, 1, 1]⟩, ⟨7015607600201137, 1000000000000000, [1, 1, 3]⟩],
  [⟨6889189901577677, 10000000000000000, [0, 1, 0]⟩, ⟨-6889189901577677, 1000000000000000, [2, 1, 0]⟩, ⟨803738821850729, 100000000000000, [4, 1, 0]⟩],
  [⟨6889189901577677, 10000000000000000, [1, 0, 0]⟩, ⟨-6889189901577677, 1000000000000000, [1, 2, 0]⟩, ⟨803738821850729, 100000000000000, [1, 4, 0]⟩],
  [⟨6889189901577677, 10000000000000000, [0, 0, 1]⟩, ⟨-6889189901577677, 1000000000000000, [2, 0, 1]⟩, ⟨803738821850729, 100000000000000, [4, 0, 1]⟩],
  [⟨6889189901577677, 10000000000000000, [0, 0, 1]⟩, ⟨-6889189901577677, 1000000000000000, [0, 2, 1]⟩, ⟨803738821850729, 100000000000000, [0, 4, 1]⟩],
  [⟨6889189901577677, 10000000000000000, [1, 0, 0]⟩, ⟨-6889189901577677, 1000000000000000, [1, 0, 2]⟩, ⟨803738821850729, 100000000000000, [1, 0, 4]⟩],
  [⟨6889189901577677, 10000000000000000, [0, 1, 0]⟩, ⟨-6889189901577677, 1000000000000000, [0, 1, 2]⟩, ⟨803738821850729, 100000000000000, [0, 1, 4]⟩],
  [⟨1193242693252298, 1000000000000000, [0, 1, 1]⟩, ⟨-1193242693252298, 100000000000000, [2, 1, 1]⟩, ⟨1392116475461014, 100000000000000, [4, 1, 1]⟩],
  [⟨1193242693252298, 1000000000000000, [1, 0, 1]⟩, ⟨-1193242693252298, 100000000000000, [1, 2, 1]⟩, ⟨1392116475461014, 100000000000000, [1, 4, 1]⟩],
  [⟨1193242693252298, 1000000000000000, [1, 1, 0]⟩, ⟨-1193242693252298, 100000000000000, [1, 1, 2]⟩, ⟨1392116475461014, 100000000000000, [1, 1, 4]⟩]]

/-- computeDerivativeMatrices.py:1260-1343. -/
def nodalSer3p1 : List Poly := [
  [⟨125, 1000, [0, 0, 0]⟩, ⟨-125, 1000, [0, 0, 1]⟩, ⟨-125, 1000, [0, 1, 0]⟩, ⟨125, 1000, [0, 1, 1]⟩, ⟨-125, 1000, [1, 0, 0]⟩, ⟨125, 1000, [1, 0, 1]⟩, ⟨125, 1000, [1, 1, 0]⟩, ⟨-125, 1000, [1, 1, 1]⟩],
  [⟨125, 1000, [0, 0, 0]⟩, ⟨-125, 1000, [0, 0, 1]⟩, ⟨-125, 1000, [0, 1, 0]⟩, ⟨125, 1000, [0, 1, 1]⟩, ⟨125, 1000, [1, 0, 0]⟩, ⟨-125, 1000, [1, 0, 1]⟩, ⟨-125, 1000, [1, 1, 0]⟩, ⟨125, 1000, [1, 1, 1]⟩],
  [⟨125, 1000, [0, 0, 0]⟩, ⟨-125, 1000, [0, 0, 1]⟩, ⟨125, 1000, [0, 1, 0]⟩, ⟨-125, 1000, [0, 1, 1]⟩, ⟨-125, 1000, [1, 0, 0]⟩, ⟨125, 1000, [1, 0, 1]⟩, ⟨-125, 1000, [1, 1, 0]⟩, ⟨125, 1000, [1, 1, 1]⟩],
  [⟨125, 1000, [0, 0, 0]⟩, ⟨-125, 1000, [0, 0, 1]⟩, ⟨125, 1000, [0, 1, 0]⟩, ⟨-125, 1000, [0, 1, 1]⟩, ⟨125, 1000, [1, 0, 0]⟩, ⟨-125, 1000, [1, 0, 1]⟩, ⟨125, 1000, [1, 1, 0]⟩, ⟨-125, 1000, [1, 1, 1]⟩],
  [⟨125, 1000, [0, 0, 0]⟩, ⟨125, 1000, [0, 0, 1]⟩, ⟨-125, 1000, [0, 1, 0]⟩, ⟨-125, 1000, [0, 1, 1]⟩, ⟨-125, 1000, [1, 0, 0]⟩, ⟨-125, 1000, [1, 0, 1]⟩, ⟨125, 1000, [1, 1, 0]⟩, ⟨125, 1000, [1, 1, 1]⟩],
  [⟨125, 1000, [0, 0, 0]⟩, ⟨125, 1000, [0, 0, 1]⟩, ⟨-125, 1000, [0, 1, 0]⟩, ⟨-125, 1000, [0, 1, 1]⟩, ⟨125, 1000, [1, 0, 0]⟩, ⟨125, 1000, [1, 0, 1]⟩, ⟨-125, 1000, [1, 1, 0]⟩, ⟨-125, 1000, [1, 1, 1]⟩],
  [⟨125, 1000, [0, 0, 0]⟩, ⟨125, 1000, [0, 0, 1]⟩, ⟨125, 1000, [0, 1, 0]⟩, ⟨125, 1000, [0, 1, 1]⟩, ⟨-125, 1000, [1, 0, 0]⟩, ⟨-125, 1000, [1, 0, 1]⟩, ⟨-125, 1000, [1, 1, 0]⟩, ⟨-125, 1000, [1, 1, 1]⟩],
  [⟨125, 1000, [0, 0, 0]⟩, ⟨125, 1000, [0, 0, 1]⟩, ⟨125, 1000, [0, 1, 0]⟩, ⟨125, 1000, [0, 1, 1]⟩, ⟨125, 1000, [1, 0, 0]⟩, ⟨125, 1000, [1, 0, 1]⟩, ⟨125, 1000, [1, 1, 0]⟩, ⟨125, 1000, [1, 1, 1]⟩]]

/-- computeDerivativeMatrices.py:1378-1653. -/
def nodalSer3p2 : List Poly := [
  [⟨-25, 100, [0, 0, 0]⟩, ⟨125, 1000, [0, 0, 1]⟩, ⟨125, 1000, [0, 0, 2]⟩, ⟨125, 1000, [0, 1, 0]⟩, ⟨-125, 1000, [0, 1, 2]⟩, ⟨125, 1000, [0, 2, 0]⟩, ⟨-125, 1000, [0, 2, 1]⟩, ⟨125, 1000, [1, 0, 0]⟩, ⟨-125, 1000, [1, 0, 2]⟩, ⟨-125, 1000, [1, 1, 1]⟩, ⟨125, 1000, [1, 1, 2]⟩, ⟨-125, 1000, [1, 2, 0]⟩, ⟨125, 1000, [1, 2, 1]⟩, ⟨125, 1000, [2, 0, 0]⟩, ⟨-125, 1000, [2, 0, 1]⟩, ⟨-125, 1000, [2, 1, 0]⟩, ⟨125, 1000, [2, 1, 1]⟩],
  [⟨25, 100, [0, 0, 0]⟩, ⟨-25, 100, [0, 0, 1]⟩, ⟨-25, 100, [0, 1, 0]⟩, ⟨25, 100, [0, 1, 1]⟩, ⟨-25, 100, [2, 0, 0]⟩, ⟨25, 100, [2, 0, 1]⟩, ⟨25, 100, [2, 1, 0]⟩, ⟨-25, 100, [2, 1, 1]⟩],
  [⟨-25, 100, [0, 0, 0]⟩, ⟨125, 1000, [0, 0, 1]⟩, ⟨125, 1000, [0, 0, 2]⟩, ⟨125, 1000, [0, 1, 0]⟩, ⟨-125, 1000, [0, 1, 2]⟩, ⟨125, 1000, [0, 2, 0]⟩, ⟨-125, 1000, [0, 2, 1]⟩, ⟨-125, 1000, [1, 0, 0]⟩, ⟨125, 1000, [1, 0, 2]⟩, ⟨125, 1000, [1, 1, 1]⟩, ⟨-125, 1000, [1, 1, 2]⟩, ⟨125, 1000, [1, 2, 0]⟩, ⟨-125, 1000, [1, 2, 1]⟩, ⟨125, 1000, [2, 0, 0]⟩, ⟨-125, 1000, [2, 0, 1]⟩, ⟨-125, 1000, [2, 1, 0]⟩, ⟨125, 1000, [2, 1, 1]⟩],
  [⟨25, 100, [0, 0, 0]⟩, ⟨-25, 100, [0, 0, 1]⟩, ⟨-25, 100, [0, 2, 0]⟩, ⟨25, 100, [0, 2, 1]⟩, ⟨-25, 100, [1, 0, 0]⟩, ⟨25, 100, [1, 0, 1]⟩, ⟨25, 100, [1, 2, 0]⟩, ⟨-25, 100, [1, 2, 1]⟩],
  [⟨25, 100, [0, 0, 0]⟩, ⟨-25, 100, [0, 0, 1]⟩, ⟨-25, 100, [0, 2, 0]⟩, ⟨25, 100, [0, 2, 1]⟩, ⟨25, 100, [1, 0, 0]⟩, ⟨-25, 100, [1, 0, 1]⟩, ⟨-25, 100, [1, 2, 0]⟩, ⟨25, 100, [1, 2, 1]⟩],
  [⟨-25, 100, [0, 0, 0]⟩, ⟨125, 1000, [0, 0, 1]⟩, ⟨125, 1000, [0, 0, 2]⟩, ⟨-125, 1000, [0, 1, 0]⟩, ⟨125, 1000, [0, 1, 2]⟩, ⟨125, 1000, [0, 2, 0]⟩, ⟨-125, 1000, [0, 2, 1]⟩, ⟨125, 1000, [1, 0, 0]⟩, ⟨-125, 1000, [1, 0, 2]⟩, ⟨125, 1000, [1, 1, 1]⟩, ⟨-125, 1000, [1, 1, 2]⟩, ⟨-125, 1000, [1, 2, 0]⟩, ⟨125, 1000, [1, 2, 1]⟩, ⟨125, 1000, [2, 0, 0]⟩, ⟨-125, 1000, [2, 0, 1]⟩, ⟨125, 1000, [2, 1, 0]⟩, ⟨-125, 1000, [2, 1, 1]⟩],
  [⟨25, 100, [0, 0, 0]⟩, ⟨-25, 100, [0, 0, 1]⟩, ⟨25, 100, [0, 1, 0]⟩, ⟨-25, 100, [0, 1, 1]⟩, ⟨-25, 100, [2, 0, 0]⟩, ⟨25, 100, [2, 0, 1]⟩, ⟨-25, 100, [2, 1, 0]⟩, ⟨25, 100, [2, 1, 1]⟩],
  [⟨-25, 100, [0, 0, 0]⟩, ⟨125, 1000, [0, 0, 1]⟩, ⟨125, 1000, [0, 0, 2]⟩, ⟨-125, 1000, [0, 1, 0]⟩, ⟨125, 1000, [0, 1, 2]⟩, ⟨125, 1000, [0, 2, 0]⟩, ⟨-125, 1000, [0, 2, 1]⟩, ⟨-125, 1000, [1, 0, 0]⟩, ⟨125, 1000, [1, 0, 2]⟩, ⟨-125, 1000, [1, 1, 1]⟩, ⟨125, 1000, [1, 1, 2]⟩, ⟨125, 1000, [1, 2, 0]⟩, ⟨-125, 1000, [1, 2, 1]⟩, ⟨125, 1000, [2, 0, 0]⟩, ⟨-125, 1000, [2, 0, 1]⟩, ⟨125, 1000, [2, 1, 0]⟩, ⟨-125, 1000, [2, 1, 1]⟩],
  [⟨25, 100, [0, 0, 0]⟩, ⟨-25, 100, [0, 0, 2]⟩, ⟨-25, 100, [0, 1, 0]⟩, ⟨25, 100, [0, 1, 2]⟩, ⟨-25, 100, [1, 0, 0]⟩, ⟨25, 100, [1, 0, 2]⟩, ⟨25, 100, [1, 1, 0]⟩, ⟨-25, 100, [1, 1, 2]⟩],
  [⟨25, 100, [0, 0, 0]⟩, ⟨-25, 100, [0, 0, 2]⟩, ⟨-25, 100, [0, 1, 0]⟩, ⟨25, 100, [0, 1, 2]⟩, ⟨25, 100, [1, 0, 0]⟩, ⟨-25, 100, [1, 0, 2]⟩, ⟨-25, 100, [1, 1, 0]⟩, ⟨25, 100, [1, 1, 2]⟩],
  [⟨25, 100, [0, 0, 0]⟩, ⟨-25, 100, [0, 0, 2]⟩, ⟨25, 100, [0, 1, 0]⟩, ⟨-25, 100, [0, 1, 2]⟩, ⟨-25, 100, [1, 0, 0]⟩, ⟨25, 100, [1, 0, 2]⟩, ⟨-25, 100, [1, 1, 0]⟩, ⟨25, 100, [1, 1, 2]⟩],
  [⟨25, 100, [0, 0, 0]⟩, ⟨-25, 100, [0, 0, 2]⟩, ⟨25, 100, [0, 1, 0]⟩, ⟨-25, 100, [0, 1, 2]⟩, ⟨25, 100, [1, 0, 0]⟩, ⟨-25, 100, [1, 0, 2]⟩, ⟨25, 100, [1, 1, 0]⟩, ⟨-25, 100, [1, 1, 2]⟩],
  [⟨-25, 100, [0, 0, 0]⟩, ⟨-125, 1000, [0, 0, 1]⟩, ⟨125, 1000, [0, 0, 2]⟩, ⟨125, 1000, [0, 1, 0]⟩, ⟨-125, 1000, [0, 1, 2]⟩, ⟨125, 1000, [0, 2, 0]⟩, ⟨125, 1000, [0, 2, 1]⟩, ⟨125, 1000, [1, 0, 0]⟩, ⟨-125, 1000, [1, 0, 2]⟩, ⟨125, 1000, [1, 1, 1]⟩, ⟨125, 1000, [1, 1, 2]⟩, ⟨-125, 1000, [1, 2, 0]⟩, ⟨-125, 1000, [1, 2, 1]⟩, ⟨125, 1000, [2, 0, 0]⟩, ⟨125, 1000, [2, 0, 1]⟩, ⟨-125, 1000, [2, 1, 0]⟩, ⟨-125, 1000, [2, 1, 1]⟩],
  [⟨25, 100, [0, 0, 0]⟩, ⟨25, 100, [0, 0, 1]⟩, ⟨-25, 100, [0, 1, 0]⟩, ⟨-25, 100, [0, 1, 1]⟩, ⟨-25, 100, [2, 0, 0]⟩, ⟨-25, 100, [2, 0, 1]⟩, ⟨25, 100, [2, 1, 0]⟩, ⟨25, 100, [2, 1, 1]⟩],
  [⟨-25, 100, [0, 0, 0]⟩, ⟨-125, 1000, [0, 0, 1]⟩, ⟨125, 1000, [0, 0, 2]⟩, ⟨125, 1000, [0, 1, 0]⟩, ⟨-125, 1000, [0, 1, 2]⟩, ⟨125, 1000, [0, 2, 0]⟩, ⟨125, 1000, [0, 2, 1]⟩, ⟨-125, 1000, [1, 0, 0]⟩, ⟨125, 1000, [1, 0, 2]⟩, ⟨-125, 1000, [1, 1, 1]⟩, ⟨-125, 1000, [1, 1, 2]⟩, ⟨125, 1000, [1, 2, 0]⟩, ⟨125, 1000, [1, 2, 1]⟩, ⟨125, 1000, [2, 0, 0]⟩, ⟨125, 1000, [2, 0, 1]⟩, ⟨-125, 1000, [2, 1, 0]⟩, ⟨-125, 1000, [2, 1, 1]⟩],
  [⟨25, 100, [0, 0, 0]⟩, ⟨25, 100, [0, 0, 1]⟩, ⟨-25, 100, [0, 2, 0]⟩, ⟨-25, 100, [0, 2, 1]⟩, ⟨-25, 100, [1, 0, 0]⟩, ⟨-25, 100, [1, 0, 1]⟩, ⟨25, 100, [1, 2, 0]⟩, ⟨25, 100, [1, 2, 1]⟩],
  [⟨25, 100, [0, 0, 0]⟩, ⟨25, 100, [0, 0, 1]⟩, ⟨-25, 100, [0, 2, 0]⟩, ⟨-25, 100, [0, 2, 1]⟩, ⟨25, 100, [1, 0, 0]⟩, ⟨25, 100, [1, 0, 1]⟩, ⟨-25, 100, [1, 2, 0]⟩, ⟨-25, 100, [1, 2, 1]⟩],
  [⟨-25, 100, [0, 0, 0]⟩, ⟨-125, 1000, [0, 0, 1]⟩, ⟨125, 1000, [0, 0, 2]⟩, ⟨-125, 1000, [0, 1, 0]⟩, ⟨125, 1000, [0, 1, 2]⟩, ⟨125, 1000, [0, 2, 0]⟩, ⟨125, 1000, [0, 2, 1]⟩, ⟨125, 1000, [1, 0, 0]⟩, ⟨-125, 1000, [1, 0, 2]⟩, ⟨-125, 1000, [1, 1, 1]⟩, ⟨-125, 1000, [1, 1, 2]⟩, ⟨-125, 1000, [1, 2, 0]⟩, ⟨-125, 1000, [1, 2, 1]⟩, ⟨125, 1000, [2, 0, 0]⟩, ⟨125, 1000, [2, 0, 1]⟩, ⟨125, 1000, [2, 1, 0]⟩, ⟨125, 1000, [2, 1, 1]⟩],
  [⟨25, 100, [0, 0, 0]⟩, ⟨25, 100, [0, 0, 1]⟩, ⟨25, 100, [0, 1, 0]⟩, ⟨25, 100, [0, 1, 1]⟩, ⟨-25, 100, [2, 0, 0]⟩, ⟨-25, 100, [2, 0, 1]⟩, ⟨-25, 100, [2, 1, 0]⟩, ⟨-25, 100, [2, 1, 1]⟩],
  [⟨-25, 100, [0, 0, 0]⟩, ⟨-125, 1000, [0, 0, 1]⟩, ⟨125, 1000, [0, 0, 2]⟩, ⟨-125, 1000, [0, 1, 0]⟩, ⟨125, 1000, [0, 1, 2]⟩, ⟨125, 1000, [0, 2, 0]⟩, ⟨125, 1000, [0, 2, 1]⟩, ⟨-125, 1000, [1, 0, 0]⟩, ⟨125, 1000, [1, 0, 2]⟩, ⟨125, 1000, [1, 1, 1]⟩, ⟨125, 1000, [1, 1, 2]⟩, ⟨125, 1000, [1, 2, 0]⟩, ⟨125, 1000, [1, 2, 1]⟩, ⟨125, 1000, [2, 0, 0]⟩, ⟨125, 1000, [2, 0, 1]⟩, ⟨125, 1000, [2, 1, 0]⟩, ⟨125, 1000, [2, 1, 1]⟩]]

/-- computeDerivativeMatrices.py:1707-1715. -/
def modalMax4p1 : List Poly := [
  [⟨25, 100, [0, 0, 0, 0]⟩],
  [⟨4330127018922192, 10000000000000000, [1, 0, 0, 0]⟩],
  [⟨4330127018922192, 10000000000000000, [0, 1, 0, 0]⟩],
  [⟨4330127018922192, 10000000000000000, [0, 0, 1, 0]⟩],
  [⟨4330127018922192, 10000000000000000, [0, 0, 0, 1]⟩]]

/-- computeDerivativeMatrices.py:1761-1779. -/
def modalMax4p2 : List Poly := [
  [⟨25, 100, [0, 0, 0, 0]⟩],
  [⟨4330127018922192, 10000000000000000, [1, 0, 0, 0]⟩],
  [⟨4330127018922192, 10000000000000000, [0, 1, 0, 0]⟩],
  [⟨4330127018922192, 10000000000000000, [0, 0, 1, 0]⟩],
  [⟨4330127018922192, 10000000000000000, [0, 0, 0, 1]⟩],
  [⟨75, 100, [1, 1, 0, 0]⟩],
  [⟨75, 100, [1, 0, 1, 0]⟩],
  [⟨75, 100, [0, 1, 1, 0]⟩],
  [⟨75, 100, [1, 0, 0, 1]⟩],
  [⟨75, 100, [0, 1, 0, 1]⟩],
  [⟨75, 100, [0, 0, 1, 1]⟩],
  [⟨-2795084971874732, 10000000000000000, [0, 0, 0, 0]⟩, ⟨8385254915624196, 10000000000000000, [2, 0, 0, 0]⟩],
  [⟨-2795084971874732, 10000000000000000, [0, 0, 0, 0]⟩, ⟨8385254915624196, 10000000000000000, [0, 2, 0, 0]⟩],
  [⟨-2795084971874732, 10000000000000000, [0, 0, 0, 0]⟩, ⟨8385254915624196, 10000000000000000, [0, 0, 2, 0]⟩],
  [⟨-2795084971874732, 10000000000000000, [0, 0, 0, 0]⟩, ⟨8385254915624196, 10000000000000000, [0, 0, 0, 2]⟩]]

/-- computeDerivativeMatrices.py:1825-1863. -/
def modalMax4p3 : List Poly := [
  [⟨25, 100, [0, 0, 0, 0]⟩],
  [⟨4330127018922192, 10000000000000000, [1, 0, 0, 0]⟩],
  [⟨4330127018922192, 10000000000000000, [0, 1, 0, 0]⟩],
  [⟨4330127018922192, 10000000000000000, [0, 0, 1, 0]⟩],
  [⟨4330127018922192, 10000000000000000, [0, 0, 0, 1]⟩],
  [⟨75, 100, [1, 1, 0, 0]⟩],
  [⟨75, 100, [1, 0, 1, 0]⟩],
  [⟨75, 100, [0, 1, 1, 0]⟩],
  [⟨75, 100, [1, 0, 0, 1]⟩],
  [⟨75, 100, [0, 1, 0, 1]⟩],
  [⟨75, 100, [0, 0, 1, 1]⟩],
  [⟨-2795084971874732, 10000000000000000, [0, 0, 0, 0]⟩, ⟨8385254915624196, 10000000000000000, [2, 0, 0, 0]⟩],
  [⟨-2795084971874732, 10000000000000000, [0, 0, 0, 0]⟩, ⟨8385254915624196, 10000000000000000, [0, 2, 0, 0]⟩],
  [⟨-2795084971874732, 10000000000000000, [0, 0, 0, 0]⟩, ⟨8385254915624196, 10000000000000000, [0, 0, 2, 0]⟩],
  [⟨-2795084971874732, 10000000000000000, [0, 0, 0, 0]⟩, ⟨8385254915624196, 10000000000000000, [0, 0, 0, 2]⟩],
  [⟨1299038105676659, 1000000000000000, [1, 1, 1, 0]⟩],
  [⟨1299038105676659, 1000000000000000, [1, 1, 0, 1]⟩],
  [⟨1299038105676659, 1000000000000000, [1, 0, 1, 1]⟩],
  [⟨1299038105676659, 1000000000000000, [0, 1, 1, 1]⟩],
  [⟨-4841229182759272, 10000000000000000, [0, 1, 0, 0]⟩, ⟨1452368754827781, 1000000000000000, [2, 1, 0, 0]⟩],
  [⟨-4841229182759272, 10000000000000000, [1, 0, 0, 0]⟩, ⟨1452368754827781, 1000000000000000, [1, 2, 0, 0]⟩],
  [⟨-4841229182759272, 10000000000000000, [0, 0, 1, 0]⟩, ⟨1452368754827781, 1000000000000000, [2, 0, 1, 0]⟩],
  [⟨-4841229182759272, 10000000000000000, [0, 0, 1, 0]⟩, ⟨1452368754827781, 1000000000000000, [0, 2, 1, 0]⟩],
  [⟨-4841229182759272, 10000000000000000, [1, 0, 0, 0]⟩, ⟨1452368754827781, 1000000000000000, [1, 0, 2, 0]⟩],
  [⟨-4841229182759272, 10000000000000000, [0, 1, 0, 0]⟩, ⟨1452368754827781, 1000000000000000, [0, 1, 2, 0]⟩],
  [⟨-4841229182759272, 10000000000000000, [0, 0, 0, 1]⟩, ⟨1452368754827781, 1000000000000000, [2, 0, 0, 1]⟩],
  [⟨-4841229182759272, 10000000000000000, [0, 0, 0, 1]⟩, ⟨1452368754827781, 1000000000000000, [0, 2, 0, 1]⟩],
  [⟨-4841229182759272, 10000000000000000, [0, 0, 0, 1]⟩, ⟨1452368754827781, 1000000000000000, [0, 0, 2, 1]⟩],
  [⟨-4841229182759272, 10000000000000000, [1, 0, 0, 0]⟩, ⟨1452368754827781, 1000000000000000, [1, 0, 0, 2]⟩],
  [⟨-4841229182759272, 10000000000000000, [0, 1, 0, 0]⟩, ⟨1452368754827781, 1000000000000000, [0, 1, 0, 2]⟩],
  [⟨-4841229182759272, 10000000000000000, [0, 0, 1, 0]⟩, ⟨1452368754827781, 1000000000000000, [0, 0, 1, 2]⟩],
  [⟨-9921567416492196, 10000000000000000, [1, 0, 0, 0]⟩, ⟨1653594569415366, 1000000000000000, [3, 0, 0, 0]⟩],
  [⟨-9921567416492196, 10000000000000000, [0, 1, 0, 0]⟩, ⟨1653594569415366, 1000000000000000, [0, 3, 0, 0]⟩],
  [⟨-9921567416492196, 10000000000000000, [0, 0, 1, 0]⟩, ⟨1653594569415366, 1000000000000000, [0, 0, 3, 0]⟩],
  [⟨-9921567416492196, 10000000000000000, [0, 0, 0, 1]⟩, ⟨1653594569415366, 1000000000000000, [0, 0, 0, 3]⟩]]

/-- computeDerivativeMatrices.py:1909-1982. -/
def modalMax4p4 : List Poly := [
  [⟨25, 100, [0, 0, 0, 0]⟩],
  [⟨4330127018922192, 10000000000000000, [1, 0, 0, 0]⟩],
  [⟨4330127018922192, 10000000000000000, [0, 1, 0, 0]⟩],
  [⟨4330127018922192, 10000000000000000, [0, 0, 1, 0]⟩],
  [⟨4330127018922192, 10000000000000000, [0, 0, 0, 1]⟩],
  [⟨75, 100, [1, 1, 0, 0]⟩],
  [⟨75, 100, [1, 0, 1, 0]⟩],
  [⟨75, 100, [0, 1, 1, 0]⟩],
  [⟨75, 100, [1, 0, 0, 1]⟩],
  [⟨75, 100, [0, 1, 0, 1]⟩],
  [⟨75, 100, [0, 0, 1, 1]⟩],
  [⟨-2795084971874732, 10000000000000000, [0, 0, 0, 0]⟩, ⟨8385254915624196, 10000000000000000, [2, 0, 0, 0]⟩],
  [⟨-2795084971874732, 10000000000000000, [0, 0, 0, 0]⟩, ⟨8385254915624196, 10000000000000000, [0, 2, 0, 0]⟩],
  [⟨-2795084971874732, 10000000000000000, [0, 0, 0, 0]⟩, ⟨8385254915624196, 10000000000000000, [0, 0, 2, 0]⟩],
  [⟨-2795084971874732, 10000000000000000, [0, 0, 0, 0]⟩, ⟨8385254915624196, 10000000000000000, [0, 0, 0, 2]⟩],
  [⟨1299038105676659, 1000000000000000, [1, 1, 1, 0]⟩],
  [⟨1299038105676659, 1000000000000000, [1, 1, 0, 1]⟩],
  [⟨1299038105676659, 1000000000000000, [1, 0, 1, 1]⟩],
  [⟨1299038105676659, 1000000000000000, [0, 1, 1, 1]⟩],
  [⟨-4841229182759272, 10000000000000000, [0, 1, 0, 0]⟩, ⟨1452368754827781, 1000000000000000, [2, 1, 0, 0]⟩],
  [⟨-4841229182759272, 10000000000000000, [1, 0, 0, 0]⟩, ⟨1452368754827781, 1000000000000000, [1, 2, 0, 0]⟩],
  [⟨-4841229182759272, 10000000000000000, [0, 0, 1, 0]⟩, ⟨1452368754827781, 1000000000000000, [2, 0, 1, 0]⟩],
  [⟨-4841229182759272, 10000000000000000, [0, 0, 1, 0]⟩, ⟨1452368754827781, 1000000000000000, [0, 2, 1, 0]⟩],
  [⟨-4841229182759272, 10000000000000000, [1, 0, 0, 0]⟩, ⟨1452368754827781, 1000000000000000, [1, 0, 2, 0]⟩],
  [⟨-4841229182759272, 10000000000000000, [0, 1, 0, 0]⟩, ⟨1452368754827781, 1000000000000000, [0, 1, 2, 0]⟩],
  [⟨-4841229182759272, 10000000000000000, [0, 0, 0, 1]⟩, ⟨1452368754827781, 1000000000000000, [2, 0, 0, 1]⟩],
  [⟨-4841229182759272, 10000000000000000, [0, 0, 0, 1]⟩, ⟨1452368754827781, 1000000000000000, [0, 2, 0, 1]⟩],
  [⟨-4841229182759272, 10000000000000000, [0, 0, 0, 1]⟩, ⟨1452368754827781, 1000000000000000, [0, 0, 2, 1]⟩],
  [⟨-4841229182759272, 10000000000000000, [1, 0, 0, 0]⟩, ⟨1452368754827781, 1000000000000000, [1, 0, 0, 2]⟩],
  [⟨-4841229182759272, 10000000000000000, [0, 1, 0, 0]⟩, ⟨1452368754827781, 1000000000000000, [0, 1, 0, 2]⟩],
  [⟨-4841229182759272, 10000000000000000, [0, 0, 1, 0]⟩, ⟨1452368754827781, 1000000000000000, [0, 0, 1, 2]⟩],
  [⟨-9921567416492196, 10000000000000000, [1, 0, 0, 0]⟩, ⟨1653594569415366, 1000000000000000, [3, 0, 0, 0]⟩],
  [⟨-9921567416492196, 10000000000000000, [0, 1, 0, 0]⟩, ⟨1653594569415366, 1000000000000000, [0, 3, 0, 0]⟩],
  [⟨-9921567416492196, 10000000000000000, [0, 0, 1, 0]⟩, ⟨1653594569415366, 1000000000000000, [0, 0, 3, 0]⟩],
  [⟨-9921567416492196, 10000000000000000, [0, 0, 0, 1]⟩, ⟨1653594569415366, 1000000000000000, [0, 0, 0, 3]⟩],
  [⟨225, 100, [1, 1, 1, 1]⟩],
  [⟨-8385254915624226, 10000000000000000, [0, 1, 1, 0]⟩, ⟨2515576474687268, 1000000000000000, [2, 1, 1, 0]⟩],
  [⟨-8385254915624226, 10000000000000000, [1, 0, 1, 0]⟩, ⟨2515576474687268, 1000000000000000, [1, 2, 1, 0]⟩],
  [⟨-8385254915624226, 10000000000000000, [1, 1, 0, 0]⟩, ⟨2515576474687268, 1000000000000000, [1, 1, 2, 0]⟩],
  [⟨-8385254915624226, 10000000000000000, [0, 1, 0, 1]⟩, ⟨2515576474687268, 1000000000000000, [2, 1, 0, 1]⟩],
  [⟨-8385254915624226, 10000000000000000, [1, 0, 0, 1]⟩, ⟨2515576474687268, 1000000000000000, [1, 2, 0, 1]⟩],
  [⟨-8385254915624226, 10000000000000000, [0, 0, 1, 1]⟩, ⟨2515576474687268, 1000000000000000, [2, 0, 1, 1]⟩],
  [⟨-8385254915624226, 10000000000000000, [0, 0, 1, 1]⟩, ⟨2515576474687268, 1000000000000000, [0, 2, 1, 1]⟩],
  [⟨-8385254915624226, 10000000000000000, [1, 0, 0, 1]⟩, ⟨2515576474687268, 1000000000000000, [1, 0, 2, 1]⟩],
  [⟨-8385254915624226, 10000000000000000, [0, 1, 0, 1]⟩, ⟨2515576474687268, 1000000000000000, [0, 1, 2, 1]⟩],
  [⟨-8385254915624226, 10000000000000000, [1, 1, 0, 0]⟩, ⟨2515576474687268, 1000000000000000, [1, 1, 0, 2]⟩],
  [⟨-8385254915624226, 10000000000000000, [1, 0, 1, 0]⟩, ⟨2515576474687268, 1000000000000000, [1, 0, 1, 2]⟩],
  [⟨-8385254915624226, 10000000000000000, [0, 1, 1, 0]⟩, ⟨2515576474687268, 1000000000000000, [0, 1, 1, 2]⟩],
  [⟨3125, 10000, [0, 0, 0, 0]⟩, ⟨-9375, 10000, [0, 2, 0, 0]⟩, ⟨-9375, 10000, [2, 0, 0, 0]⟩, ⟨28125, 10000, [2, 2, 0, 0]⟩],
  [⟨3125, 10000, [0, 0, 0, 0]⟩, ⟨-9375, 10000, [0, 0, 2, 0]⟩, ⟨-9375, 10000, [2, 0, 0, 0]⟩, ⟨28125, 10000, [2, 0, 2, 0]⟩],
  [⟨3125, 10000, [0, 0, 0, 0]⟩, ⟨-9375, 10000, [0, 0, 2, 0]⟩, ⟨-9375, 10000, [0, 2, 0, 0]⟩, ⟨28125, 10000, [0, 2, 2, 0]⟩],
  [⟨3125, 10000, [0, 0, 0, 0]⟩, ⟨-9375, 10000, [0, 0, 0, 2]⟩, ⟨-9375, 10000, [2, 0, 0, 0]⟩, ⟨28125, 10000, [2, 0, 0, 2]⟩],
  [⟨3125, 10000, [0, 0, 0, 0]⟩, ⟨-9375, 10000, [0, 0, 0, 2]⟩, ⟨-9375, 10000, [0, 2, 0, 0]⟩, ⟨28125, 10000, [0, 2, 0, 2]⟩],
  [⟨3125, 10000, [0, 0, 0, 0]⟩, ⟨-9375, 10000, [0, 0, 0, 2]⟩, ⟨-9375, 10000, [0, 0, 2, 0]⟩, ⟨28125, 10000, [0, 0, 2, 2]⟩],
  [⟨-1718465885608439, 1000000000000000, [1, 1, 0, 0]⟩, ⟨2864109809347398, 1000000000000000, [3, 1, 0, 0]⟩],
  [⟨-1718465885608439, 1000000000000000, [1, 1, 0, 0]⟩, ⟨2864109809347398, 1000000000000000, [1, 3, 0, 0]⟩],
  [⟨-1718465885608439, 1000000000000000, [1, 0, 1, 0]⟩, ⟨2864109809347398, 1000000000000000, [3, 0, 1, 0]⟩],
  [⟨-1718465885608439, 1000000000000000, [0, 1, 1, 0]⟩, ⟨2864109809347398, 1000000000000000, [0, 3, 1, 0]⟩],
  [⟨-1718465885608439, 1000000000000000, [1, 0, 1, 0]⟩, ⟨2864109809347398, 1000000000000000, [1, 0, 3, 0]⟩],
  [⟨-1718465885608439, 1000000000000000, [0, 1, 1, 0]⟩, ⟨2864109809347398, 1000000000000000, [0, 1, 3, 0]⟩],
  [⟨-1718465885608439, 1000000000000000, [1, 0, 0, 1]⟩, ⟨2864109809347398, 1000000000000000, [3, 0, 0, 1]⟩],
  [⟨-1718465885608439, 1000000000000000, [0, 1, 0, 1]⟩, ⟨2864109809347398, 1000000000000000, [0, 3, 0, 1]⟩],
  [⟨-1718465885608439, 1000000000000000, [0, 0, 1, 1]⟩, ⟨2864109809347398, 1000000000000000, [0, 0, 3, 1]⟩],
  [⟨-1718465885608439, 1000000000000000, [1, 0, 0, 1]⟩, ⟨2864109809347398, 1000000000000000, [1, 0, 0, 3]⟩],
  [⟨-1718465885608439, 1000000000000000, [0, 1, 0, 1]⟩, ⟨2864109809347398, 1000000000000000, [0, 1, 0, 3]⟩],
  [⟨-1718465885608439, 1000000000000000, [0, 0, 1, 1]⟩, ⟨2864109809347398, 1000000000000000, [0, 0, 1, 3]⟩],
  [⟨28125, 100000, [0, 0, 0, 0]⟩, ⟨-28125, 10000, [2, 0, 0, 0]⟩, ⟨328125, 100000, [4, 0, 0, 0]⟩],
  [⟨28125, 100000, [0, 0, 0, 0]⟩, ⟨-28125, 10000, [0, 2, 0, 0]⟩, ⟨328125, 100000, [0, 4, 0, 0]⟩],
  [⟨28125, 100000, [0, 0, 0, 0]⟩, ⟨-28125, 10000, [0, 0, 2, 0]⟩, ⟨328125, 100000, [0, 0, 4, 0]⟩],
  [⟨28125, 100000, [0, 0, 0, 0]⟩, ⟨-28125, 10000, [0, 0, 0, 2]⟩, ⟨328125, 100000, [0, 0, 0, 4]⟩]]

/-- computeDerivativeMatrices.py:2035-2054. -/
def modalSer4p1 : List Poly := [
  [⟨25, 100, [0, 0, 0, 0]⟩],
  [⟨4330127018922192, 10000000000000000, [1, 0, 0, 0]⟩],
  [⟨4330127018922192, 10000000000000000, [0, 1, 0, 0]⟩],
  [⟨4330127018922192, 10000000000000000, [0, 0, 1, 0]⟩],
  [⟨4330127018922192, 10000000000000000, [0, 0, 0, 1]⟩],
  [⟨75, 100, [1, 1, 0, 0]⟩],
  [⟨75, 100, [1, 0, 1, 0]⟩],
  [⟨75, 100, [0, 1, 1, 0]⟩],
  [⟨75, 100, [1, 0, 0, 1]⟩],
  [⟨75, 100, [0, 1, 0, 1]⟩],
  [⟨75, 100, [0, 0, 1, 1]⟩],
  [⟨1299038105676659, 1000000000000000, [1, 1, 1, 0]⟩],
  [⟨1299038105676659, 1000000000000000, [1, 1, 0, 1]⟩],
  [⟨1299038105676659, 1000000000000000, [1, 0, 1, 1]⟩],
  [⟨1299038105676659, 1000000000000000, [0, 1, 1, 1]⟩],
  [⟨225, 100, [1, 1, 1, 1]⟩]]

/-- computeDerivativeMatrices.py:2100-2151. -/
def modalSer4p2 : List Poly := [
  [⟨25, 100, [0, 0, 0, 0]⟩],
  [⟨4330127018922192, 10000000000000000, [1, 0, 0, 0]⟩],
  [⟨4330127018922192, 10000000000000000, [0, 1, 0, 0]⟩],
  [⟨4330127018922192, 10000000000000000, [0, 0, 1, 0]⟩],
  [⟨4330127018922192, 10000000000000000, [0, 0, 0, 1]⟩],
  [⟨75, 100, [1, 1, 0, 0]⟩],
  [⟨75, 100, [1, 0, 1, 0]⟩],
  [⟨75, 100, [0, 1, 1, 0]⟩],
  [⟨75, 100, [1, 0, 0, 1]⟩],
  [⟨75, 100, [0, 1, 0, 1]⟩],
  [⟨75, 100, [0, 0, 1, 1]⟩],
  [⟨-2795084971874732, 10000000000000000, [0, 0, 0, 0]⟩, ⟨8385254915624196, 10000000000000000, [2, 0, 0, 0]⟩],
  [⟨-2795084971874732, 10000000000000000, [0, 0, 0, 0]⟩, ⟨8385254915624196, 10000000000000000, [0, 2, 0, 0]⟩],
  [⟨-2795084971874732, 10000000000000000, [0, 0, 0, 0]⟩, ⟨8385254915624196, 10000000000000000, [0, 0, 2, 0]⟩],
  [⟨-2795084971874732, 10000000000000000, [0, 0, 0, 0]⟩, ⟨8385254915624196, 10000000000000000, [0, 0, 0, 2]⟩],
  [⟨1299038105676659, 1000000000000000, [1, 1, 1, 0]⟩],
  [⟨1299038105676659, 1000000000000000, [1, 1, 0, 1]⟩],
  [⟨1299038105676659, 1000000000000000, [1, 0, 1, 1]⟩],
  [⟨1299038105676659, 1000000000000000, [0, 1, 1, 1]⟩],
  [⟨-4841229182759272, 10000000000000000, [0, 1, 0, 0]⟩, ⟨1452368754827781, 1000000000000000, [2, 1, 0, 0]⟩],
  [⟨-4841229182759272, 10000000000000000, [1, 0, 0, 0]⟩, ⟨1452368754827781, 1000000000000000, [1, 2, 0, 0]⟩],
  [⟨-4841229182759272, 10000000000000000, [0, 0, 1, 0]⟩, ⟨1452368754827781, 1000000000000000, [2, 0, 1, 0]⟩],
  [⟨-4841229182759272, 10000000000000000, [0, 0, 1, 0]⟩, ⟨1452368754827781, 1000000000000000, [0, 2, 1, 0]⟩],
  [⟨-4841229182759272, 10000000000000000, [1, 0, 0, 0]⟩, ⟨1452368754827781, 1000000000000000, [1, 0, 2, 0]⟩],
  [⟨-4841229182759272, 10000000000000000, [0, 1, 0, 0]⟩, ⟨1452368754827781, 1000000000000000, [0, 1, 2, 0]⟩],
  [⟨-4841229182759272, 10000000000000000, [0, 0, 0, 1]⟩, ⟨1452368754827781, 1000000000000000, [2, 0, 0, 1]⟩],
  [⟨-4841229182759272, 10000000000000000, [0, 0, 0, 1]⟩, ⟨1452368754827781, 1000000000000000, [0, 2, 0, 1]⟩],
  [⟨-4841229182759272, 10000000000000000, [0, 0, 0, 1]⟩, ⟨1452368754827781, 1000000000000000, [0, 0, 2, 1]⟩],
  [⟨-4841229182759272, 10000000000000000, [1, 0, 0, 0]⟩, ⟨1452368754827781, 1000000000000000, [1, 0, 0, 2]⟩],
  [⟨-4841229182759272, 10000000000000000, [0, 1, 0, 0]⟩, ⟨1452368754827781, 1000000000000000, [0, 1, 0, 2]⟩],
  [⟨-4841229182759272, 10000000000000000, [0, 0, 1, 0]⟩, ⟨1452368754827781, 1000000000000000, [0, 0, 1, 2]⟩],
  [⟨225, 100, [1, 1, 1, 1]⟩],
  [⟨-8385254915624226, 10000000000000000, [0, 1, 1, 0]⟩, ⟨2515576474687268, 1000000000000000, [2, 1, 1, 0]⟩],
  [⟨-8385254915624226, 10000000000000000, [1, 0, 1, 0]⟩, ⟨2515576474687268, 1000000000000000, [1, 2, 1, 0]⟩],
  [⟨-8385254915624226, 10000000000000000, [1, 1, 0, 0]⟩, ⟨2515576474687268, 1000000000000000, [1, 1, 2, 0]⟩],
  [⟨-8385254915624226, 10000000000000000, [0, 1, 0, 1]⟩, ⟨2515576474687268, 1000000000000000, [2, 1, 0, 1]⟩],
  [⟨-8385254915624226, 10000000000000000, [1, 0, 0, 1]⟩, ⟨2515576474687268, 1000000000000000, [1, 2, 0, 1]⟩],
  [⟨-8385254915624226, 10000000000000000, [0, 0, 1, 1]⟩, ⟨2515576474687268, 1000000000000000, [2, 0, 1, 1]⟩],
  [⟨-8385254915624226, 10000000000000000, [0, 0, 1, 1]⟩, ⟨2515576474687268, 1000000000000000, [0, 2, 1, 1]⟩],
  [⟨-8385254915624226, 10000000000000000, [1, 0, 0, 1]⟩, ⟨2515576474687268, 1000000000000000, [1, 0, 2, 1]⟩],
  [⟨-8385254915624226, 10000000000000000, [0, 1, 0, 1]⟩, ⟨2515576474687268, 1000000000000000, [0, 1, 2, 1]⟩],
  [⟨-8385254915624226, 10000000000000000, [1, 1, 0, 0]⟩, ⟨2515576474687268, 1000000000000000, [1, 1, 0, 2]⟩],
  [⟨-8385254915624226, 10000000000000000, [1, 0, 1, 0]⟩, ⟨2515576474687268, 1000000000000000, [1, 0, 1, 2]⟩],
  [⟨-8385254915624226, 10000000000000000, [0, 1, 1, 0]⟩, ⟨2515576474687268, 1000000000000000, [0, 1, 1, 2]⟩],
  [⟨-1452368754827781, 1000000000000000, [0, 1, 1, 1]⟩, ⟨4357106264483344, 1000000000000000, [2, 1, 1, 1]⟩],
  [⟨-1452368754827781, 1000000000000000, [1, 0, 1, 1]⟩, ⟨4357106264483344, 1000000000000000, [1, 2, 1, 1]⟩],
  [⟨-1452368754827781, 1000000000000000, [1, 1, 0, 1]⟩, ⟨4357106264483344, 1000000000000000, [1, 1, 2, 1]⟩],
  [⟨-1452368754827781, 1000000000000000, [1, 1, 1, 0]⟩, ⟨4357106264483344, 1000000000000000, [1, 1, 1, 2]⟩]]

/-- computeDerivativeMatrices.py:2197-2280. -/
def modalSer4p3 : List Poly := [
  [⟨25, 100, [0, 0, 0, 0]⟩],
  [⟨4330127018922192, 10000000000000000, [1, 0, 0, 0]⟩],
  [⟨4330127018922192, 10000000000000000, [0, 1, 0, 0]⟩],
  [⟨4330127018922192, 10000000000000000, [0, 0, 1, 0]⟩],
  [⟨4330127018922192, 10000000000000000, [0, 0, 0, 1]⟩],
  [⟨75, 100, [1, 1, 0, 0]⟩],
  [⟨75, 100, [1, 0, 1, 0]⟩],
  [⟨75, 100, [0, 1, 1, 0]⟩],
  [⟨75, 100, [1, 0, 0, 1]⟩],
  [⟨75, 100, [0, 1, 0, 1]⟩],
  [⟨75, 100, [0, 0, 1, 1]⟩],
  [⟨-2795084971874732, 10000000000000000, [0, 0, 0, 0]⟩, ⟨8385254915624196, 10000000000000000, [2, 0, 0, 0]⟩],
  [⟨-2795084971874732, 10000000000000000, [0, 0, 0, 0]⟩, ⟨8385254915624196, 10000000000000000, [0, 2, 0, 0]⟩],
  [⟨-2795084971874732, 10000000000000000, [0, 0, 0, 0]⟩, ⟨8385254915624196, 10000000000000000, [0, 0, 2, 0]⟩],
  [⟨-2795084971874732, 10000000000000000, [0, 0, 0, 0]⟩, ⟨8385254915624196, 10000000000000000, [0, 0, 0, 2]⟩],
  [⟨1299038105676659, 1000000000000000, [1, 1, 1, 0]⟩],
  [⟨1299038105676659, 1000000000000000, [1, 1, 0, 1]⟩],
  [⟨1299038105676659, 1000000000000000, [1, 0, 1, 1]⟩],
  [⟨1299038105676659, 1000000000000000, [0, 1, 1, 1]⟩],
  [⟨-4841229182759272, 10000000000000000, [0, 1, 0, 0]⟩, ⟨1452368754827781, 1000000000000000, [2, 1, 0, 0]⟩],
  [⟨-4841229182759272, 10000000000000000, [1, 0, 0, 0]⟩, ⟨1452368754827781, 1000000000000000, [1, 2, 0, 0]⟩],
  [⟨-4841229182759272, 10000000000000000, [0, 0, 1, 0]⟩, ⟨1452368754827781, 1000000000000000, [2, 0, 1, 0]⟩],
  [⟨-4841229182759272, 10000000000000000, [0, 0, 1, 0]⟩, ⟨1452368754827781, 1000000000000000, [0, 2, 1, 0]⟩],
  [⟨-4841229182759272, 10000000000000000, [1, 0, 0, 0]⟩, ⟨1452368754827781, 1000000000000000, [1, 0, 2, 0]⟩],
  [⟨-4841229182759272, 10000000000000000, [0, 1, 0, 0]⟩, ⟨1452368754827781, 1000000000000000, [0, 1, 2, 0]⟩],
  [⟨-4841229182759272, 10000000000000000, [0, 0, 0, 1]⟩, ⟨1452368754827781, 1000000000000000, [2, 0, 0, 1]⟩],
  [⟨-4841229182759272, 10000000000000000, [0, 0, 0, 1]⟩, ⟨1452368754827781, 1000000000000000, [0, 2, 0, 1]⟩],
  [⟨-4841229182759272, 10000000000000000, [0, 0, 0, 1]⟩, ⟨1452368754827781, 1000000000000000, [0, 0, 2, 1]⟩],
  [⟨-4841229182759272, 10000000000000000, [1, 0, 0, 0]⟩, ⟨1452368754827781, 1000000000000000, [1, 0, 0, 2]⟩],
  [⟨-4841229182759272, 10000000000000000, [0, 1, 0, 0]⟩, ⟨1452368754827781, 1000000000000000, [0, 1, 0, 2]⟩],
  [⟨-4841229182759272, 10000000000000000, [0, 0, 1, 0]⟩, ⟨1452368754827781, 1000000000000000, [0, 0, 1, 2]⟩],
  [⟨-9921567416492196, 10000000000000000, [1, 0, 0, 0]⟩, ⟨1653594569415366, 1000000000000000, [3, 0, 0, 0]⟩],
  [⟨-9921567416492196, 10000000000000000, [0, 1, 0, 0]⟩, ⟨1653594569415366, 1000000000000000, [0, 3, 0, 0]⟩],
  [⟨-9921567416492196, 10000000000000000, [0, 0, 1, 0]⟩, ⟨1653594569415366, 1000000000000000, [0, 0, 3, 0]⟩],
  [⟨-9921567416492196, 10000000000000000, [0, 0, 0, 1]⟩, ⟨1653594569415366, 1000000000000000, [0, 0, 0, 3]⟩],
  [⟨225, 100, [1, 1, 1, 1]⟩],
  [⟨-8385254915624226, 10000000000000000, [0, 1, 1, 0]⟩, ⟨2515576474687268, 1000000000000000, [2, 1, 1, 0]⟩],
  [⟨-8385254915624226, 10000000000000000, [1, 0, 1, 0]⟩, ⟨2515576474687268, 1000000000000000, [1, 2, 1, 0]⟩],
  [⟨-8385254915624226, 10000000000000000, [1, 1, 0, 0]⟩, ⟨2515576474687268, 1000000000000000, [1, 1, 2, 0]⟩],
  [⟨-8385254915624226, 10000000000000000, [0, 1, 0, 1]⟩, ⟨2515576474687268, 1000000000000000, [2, 1, 0, 1]⟩],
  [⟨-8385254915624226, 10000000000000000, [1, 0, 0, 1]⟩, ⟨2515576474687268, 1000000000000000, [1, 2, 0, 1]⟩],
  [⟨-8385254915624226, 10000000000000000, [0, 0, 1, 1]⟩, ⟨2515576474687268, 1000000000000000, [2, 0, 1, 1]⟩],
  [⟨-8385254915624226, 10000000000000000, [0, 0, 1, 1]⟩, ⟨2515576474687268, 1000000000000000, [0, 2, 1, 1]⟩],
  [⟨-8385254915624226, 10000000000000000, [1, 0, 0, 1]⟩, ⟨2515576474687268, 1000000000000000, [1, 0, 2, 1]⟩],
  [⟨-8385254915624226, 10000000000000000, [0, 1, 0, 1]⟩, ⟨2515576474687268, 1000000000000000, [0, 1, 2, 1]⟩],
  [⟨-8385254915624226, 10000000000000000, [1, 1, 0, 0]⟩, ⟨2515576474687268, 1000000000000000, [1, 1, 0, 2]⟩],
  [⟨-8385254915624226, 10000000000000000, [1, 0, 1, 0]⟩, ⟨2515576474687268, 1000000000000000, [1, 0, 1, 2]⟩],
  [⟨-8385254915624226, 10000000000000000, [0, 1, 1, 0]⟩, ⟨2515576474687268, 1000000000000000, [0, 1, 1, 2]⟩],
  [⟨-1718465885608439, 1000000000000000, [1, 1, 0, 0]⟩, ⟨2864109809347398, 1000000000000000, [3, 1, 0, 0]⟩],
  [⟨-1718465885608439, 1000000000000000, [1, 1, 0, 0]⟩, ⟨2864109809347398, 1000000000000000, [1, 3, 0, 0]⟩],
  [⟨-1718465885608439, 1000000000000000, [1, 0, 1, 0]⟩, ⟨2864109809347398, 1000000000000000, [3, 0, 1, 0]⟩],
  [⟨-1718465885608439, 1000000000000000, [0, 1, 1, 0]⟩, ⟨2864109809347398, 1000000000000000, [0, 3, 1, 0]⟩],
  [⟨-1718465885608439, 1000000000000000, [1, 0, 1, 0]⟩, ⟨2864109809347398, 1000000000000000, [1, 0, 3, 0]⟩],
  [⟨-1718465885608439, 1000000000000000, [0, 1, 1, 0]⟩, ⟨2864109809347398, 1000000000000000, [0, 1, 3, 0]⟩],
  [⟨-1718465885608439, 1000000000000000, [1, 0, 0, 1]⟩, ⟨2864109809347398, 1000000000000000, [3, 0, 0, 1]⟩],
  [⟨-1718465885608439, 1000000000000000, [0, 1, 0, 1]⟩, ⟨2864109809347398, 1000000000000000, [0, 3, 0, 1]⟩],
  [⟨-1718465885608439, 1000000000000000, [0, 0, 1, 1]⟩, ⟨2864109809347398, 1000000000000000, [0, 0, 3, 1]⟩],
  [⟨-1718465885608439, 1000000000000000, [1, 0, 0, 1]⟩, ⟨2864109809347398, 1000000000000000, [1, 0, 0, 3]⟩],
  [⟨-1718465885608439, 1000000000000000, [0, 1, 0, 1]⟩, ⟨2864109809347398, 1000000000000000, [0, 1, 0, 3]⟩],
  [⟨-1718465885608439, 1000000000000000, [0, 0, 1, 1]⟩, ⟨2864109809347398, 1000000000000000, [0, 0, 1, 3]⟩],
  [⟨-1452368754827781, 1000000000000000, [0, 1, 1, 1]⟩, ⟨4357106264483344, 1000000000000000, [2, 1, 1, 1]⟩],
  [⟨-1452368754827781, 1000000000000000, [1, 0, 1, 1]⟩, ⟨4357106264483344, 1000000000000000, [1, 2, 1, 1]⟩],
  [⟨-1452368754827781, 1000000000000000, [1, 1, 0, 1]⟩, ⟨4357106264483344, 1000000000000000, [1, 1, 2, 1]⟩],
  [⟨-1452368754827781, 1000000000000000, [1, 1, 1, 0]⟩, ⟨4357106264483344, 1000000000000000, [1, 1, 1, 2]⟩],
  [⟨-2976470224947662, 1000000000000000, [1, 1, 1, 0]⟩, ⟨4960783708246104, 1000000000000000, [3, 1, 1, 0]⟩],
  [⟨-2976470224947662, 1000000000000000, [1, 1, 1, 0]⟩, ⟨4960783708246104, 1000000000000000, [1, 3, 1, 0]⟩],
  [⟨-2976470224947662, 1000000000000000, [1, 1, 1, 0]⟩, ⟨4960783708246104, 1000000000000000, [1, 1, 3, 0]⟩],
  [⟨-2976470224947662, 1000000000000000, [1, 1, 0, 1]⟩, ⟨4960783708246104, 1000000000000000, [3, 1, 0, 1]⟩],
  [⟨-2976470224947662, 1000000000000000, [1, 1, 0, 1]⟩, ⟨4960783708246104, 1000000000000000, [1, 3, 0, 1]⟩],
  [⟨-2976470224947662, 1000000000000000, [1, 0, 1, 1]⟩, ⟨4960783708246104, 1000000000000000, [3, 0, 1, 1]⟩],
  [⟨-2976470224947662, 1000000000000000, [0, 1, 1, 1]⟩, ⟨4960783708246104, 1000000000000000, [0, 3, 1, 1]⟩],
  [⟨-2976470224947662, 1000000000000000, [1, 0, 1, 1]⟩, ⟨4960783708246104, 1000000000000000, [1, 0, 3, 1]⟩],
  [⟨-2976470224947662, 1000000000000000, [0, 1, 1, 1]⟩, ⟨4960783708246104, 1000000000000000, [0, 1, 3, 1]⟩],
  [⟨-2976470224947662, 1000000000000000, [1, 1, 0, 1]⟩, ⟨4960783708246104, 1000000000000000, [1, 1, 0, 3]⟩],
  [⟨-2976470224947662, 1000000000000000, [1, 0, 1, 1]⟩, ⟨4960783708246104, 1000000000000000, [1, 0, 1, 3]⟩],
  [⟨-2976470224947662, 1000000000000000, [0, 1, 1, 1]⟩, ⟨4960783708246104, 1000000000000000, [0, 1, 1, 3]⟩],
  [⟨-515539765682532, 100000000000000, [1, 1, 1, 1]⟩, ⟨85923294280422, 10000000000000, [3, 1, 1, 1]⟩],
  [⟨-515539765682532, 100000000000000, [1, 1, 1, 1]⟩, ⟨85923294280422, 10000000000000, [1, 3, 1, 1]⟩],
  [⟨-515539765682532, 100000000000000, [1, 1, 1, 1]⟩, ⟨85923294280422, 10000000000000, [1, 1, 3, 1]⟩],
  [⟨-515539765682532, 100000000000000, [1, 1, 1, 1]⟩, ⟨85923294280422, 10000000000000, [1, 1, 1, 3]⟩]]

/-- computeDerivativeMatrices.py:2326-2619. -/
def modalSer4p4 : List Poly := [
  [⟨25, 100, [0, 0, 0, 0]⟩],
  [⟨4330127018922192, 10000000000000000, [1, 0, 0, 0]⟩],
  [⟨4330127018922192, 10000000000000000, [0, 1, 0, 0]⟩],
  [⟨4330127018922192, 10000000000000000, [0, 0, 1, 0]⟩],
  [⟨4330127018922192, 10000000000000000, [0, 0, 0, 1]⟩],
  [⟨75, 100, [1, 1, 0, 0]⟩],
  [⟨75, 100, [1, 0, 1, 0]⟩],
  [⟨75, 100, [0, 1, 1, 0]⟩],
  [⟨75, 100, [1, 0, 0, 1]⟩],
  [⟨75, 100, [0, 1, 0, 1]⟩],
  [⟨75, 100, [0, 0, 1, 1]⟩],
  [⟨-2795084971874732, 10000000000000000, [0, 0, 0, 0]⟩, ⟨8385254915624196, 10000000000000000, [2, 0, 0, 0]⟩],
  [⟨-2795084971874732, 10000000000000000, [0, 0, 0, 0]⟩, ⟨8385254915624196, 10000000000000000, [0, 2, 0, 0]⟩],
  [⟨-2795084971874732, 10000000000000000, [0, 0, 0, 0]⟩, ⟨8385254915624196, 10000000000000000, [0, 0, 2, 0]⟩],
  [⟨-2795084971874732, 10000000000000000, [0, 0, 0, 0]⟩, ⟨8385254915624196, 10000000000000000, [0, 0, 0, 2]⟩],
  [⟨1299038105676659, 1000000000000000, [1, 1, 1, 0]⟩],
  [⟨1299038105676659, 1000000000000000, [1, 1, 0, 1]⟩],
  [⟨1299038105676659, 1000000000000000, [1, 0, 1, 1]⟩],
  [⟨1299038105676659, 1000000000000000, [0, 1, 1, 1]⟩],
  [⟨-4841229182759272, 10000000000000000, [0, 1, 0, 0]⟩, ⟨1452368754827781, 1000000000000000, [2, 1, 0, 0]⟩],
  [⟨-4841229182759272, 10000000000000000, [1, 0, 0, 0]⟩, ⟨1452368754827781, 1000000000000000, [1, 2, 0, 0]⟩],
  [⟨-4841229182759272, 10000000000000000, [0, 0, 1, 0]⟩, ⟨1452368754827781, 1000000000000000, [2, 0, 1, 0]⟩],
  [⟨-4841229182759272, 10000000000000000, [0, 0, 1, 0]⟩, ⟨1452368754827781, 1000000000000000, [0, 2, 1, 0]⟩],
  [⟨-4841229182759272, 10000000000000000, [1, 0, 0, 0]⟩, ⟨1452368754827781, 1000000000000000, [1, 0, 2, 0]⟩],
  [⟨-4841229182759272, 10000000000000000, [0, 1, 0, 0]⟩, ⟨1452368754827781, 1000000000000000, [0, 1, 2, 0]⟩],
  [⟨-4841229182759272, 10000000000000000, [0, 0, 0, 1]⟩, ⟨1452368754827781, 1000000000000000, [2, 0, 0, 1]⟩],
  [⟨-4841229182759272, 10000000000000000, [0, 0, 0, 1]⟩, ⟨1452368754827781, 1000000000000000, [0, 2, 0, 1]⟩],
  [⟨-4841229182759272, 10000000000000000, [0, 0, 0, 1]⟩, ⟨1452368754827781, 1000000000000000, [0, 0, 2, 1]⟩],
  [⟨-4841229182759272, 10000000000000000, [1, 0, 0, 0]⟩, ⟨1452368754827781, 1000000000000000, [1, 0, 0, 2]⟩],
  [⟨-4841229182759272, 10000000000000000, [0, 1, 0, 0]⟩, ⟨1452368754827781, 1000000000000000, [0, 1, 0, 2]⟩],
  [⟨-4841229182759272, 10000000000000000, [0, 0, 1, 0]⟩, ⟨1452368754827781, 1000000000000000, [0, 0, 1, 2]⟩],
  [⟨-9921567416492196, 10000000000000000, [1, 0, 0, 0]⟩, ⟨1653594569415366, 1000000000000000, [3, 0, 0, 0]⟩],
  [⟨-9921567416492196, 10000000000000000, [0, 1, 0, 0]⟩, ⟨1653594569415366, 1000000000000000, [0, 3, 0, 0]⟩],
  [⟨-9921567416492196, 10000000000000000, [0, 0, 1, 0]⟩, ⟨1653594569415366, 1000000000000000, [0, 0, 3, 0]⟩],
  [⟨-9921567416492196, 10000000000000000, [0, 0, 0, 1]⟩, ⟨1653594569415366, 1000000000000000, [0, 0, 0, 3]⟩],
  [⟨225, 100, [1, 1, 1, 1]⟩],
  [⟨-8385254915624226, 10000000000000000, [0, 1, 1, 0]⟩, ⟨2515576474687268, 1000000000000000, [2, 1, 1, 0]⟩],
  [⟨-8385254915624226, 10000000000000000, [1, 0, 1, 0]⟩, ⟨2515576474687268, 1000000000000000, [1, 2, 1, 0]⟩],
  [⟨-8385254915624226, 10000000000000000, [1, 1, 0, 0]⟩, ⟨2515576474687268, 1000000000000000, [1, 1, 2, 0]⟩],
  [⟨-8385254915624226, 10000000000000000, [0, 1, 0, 1]⟩, ⟨2515576474687268, 1000000000000000, [2, 1, 0, 1]⟩],
  [⟨-8385254915624226, 10000000000000000, [1, 0, 0, 1]⟩, ⟨2515576474687268, 1000000000000000, [1, 2, 0, 1]⟩],
  [⟨-8385254915624226, 10000000000000000, [0, 0, 1, 1]⟩, ⟨2515576474687268, 1000000000000000, [2, 0, 1, 1]⟩],
  [⟨-8385254915624226, 10000000000000000, [0, 0, 1, 1]⟩, ⟨2515576474687268, 1000000000000000, [0, 2, 1, 1]⟩],
  [⟨-8385254915624226, 10000000000000000, [1, 0, 0, 1]⟩, ⟨2515576474687268, 1000000000000000, [1, 0, 2, 1]⟩],
  [⟨-8385254915624226, 10000000000000000, [0, 1, 0, 1]⟩, ⟨2515576474687268, 1000000000000000, [0, 1, 2, 1]⟩],
  [⟨-8385254915624226, 10000000000000000, [1, 1, 0, 0]⟩, ⟨2515576474687268, 1000000000000000, [1, 1, 0, 2]⟩],
  [⟨-8385254915624226, 10000000000000000, [1, 0, 1, 0]⟩, ⟨2515576474687268, 1000000000000000, [1, 0, 1, 2]⟩],
  [⟨-8385254915624226, 10000000000000000, [0, 1, 1, 0]⟩, ⟨2515576474687268, 1000000000000000, [0, 1, 1, 2]⟩],
  [⟨3125, 10000, [0, 0, 0, 0]⟩, ⟨-9375, 10000, [0, 2, 0, 0]⟩, ⟨-9375, 10000, [2, 0, 0, 0]⟩, ⟨28125, 10000, [2, 2, 0, 0]⟩],
  [⟨3125, 10000, [0, 0, 0, 0]⟩, ⟨-9375, 10000, [0, 0, 2, 0]⟩, ⟨-9375, 10000, [2, 0, 0, 0]⟩, ⟨28125, 10000, [2, 0, 2, 0]⟩],
  [⟨3125, 10000, [0, 0, 0, 0]⟩, ⟨-9375, 10000, [0, 0, 2, 0]⟩, ⟨-9375, 10000, [0, 2, 0, 0]⟩, ⟨28125, 10000, [0, 2, 2, 0]⟩],
  [⟨3125, 10000, [0, 0, 0, 0]⟩, ⟨-9375, 10000, [0, 0, 0, 2]⟩, ⟨-9375, 10000, [2, 0, 0, 0]⟩, ⟨28125, 10000, [2, 0, 0, 2]⟩],
  [⟨3125, 10000, [0, 0, 0, 0]⟩, ⟨-9375, 10000, [0, 0, 0, 2]⟩, ⟨-9375, 10000, [0, 2, 0, 0]⟩, ⟨28125, 10000, [0, 2, 0, 2]⟩],
  [⟨3125, 10000, [0, 0, 0, 0]⟩, ⟨-9375, 10000, [0, 0, 0, 2]⟩, ⟨-9375, 10000, [0, 0, 2, 0]⟩, ⟨28125, 10000, [0, 0, 2, 2]⟩],
  [⟨-1718465885608439, 1000000000000000, [1, 1, 0, 0]⟩, ⟨2864109809347398, 1000000000000000, [3, 1, 0, 0]⟩],
  [⟨-1718465885608439, 1000000000000000, [1, 1, 0, 0]⟩, ⟨2864109809347398, 1000000000000000, [1, 3, 0, 0]⟩],
  [⟨-1718465885608439, 1000000000000000, [1, 0, 1, 0]⟩, ⟨2864109809347398, 1000000000000000, [3, 0, 1, 0]⟩],
  [⟨-1718465885608439, 1000000000000000, [0, 1, 1, 0]⟩, ⟨2864109809347398, 1000000000000000, [0, 3, 1, 0]⟩],
  [⟨-1718465885608439, 1000000000000000, [1, 0, 1, 0]⟩, ⟨2864109809347398, 1000000000000000, [1, 0, 3, 0]⟩],
  [⟨-1718465885608439, 1000000000000000, [0, 1, 1, 0]⟩, ⟨2864109809347398, 1000000000000000, [0, 1, 3, 0]⟩],
  [⟨-1718465885608439, 1000000000000000, [1, 0, 0, 1]⟩, ⟨2864109809347398, 1000000000000000, [3, 0, 0, 1]⟩],
  [⟨-1718465885608439, 1000000000000000, [0, 1, 0, 1]⟩, ⟨2864109809347398, 1000000000000000, [0, 3, 0, 1]⟩],
  [⟨-1718465885608439, 1000000000000000, [0, 0, 1, 1]⟩, ⟨2864109809347398, 1000000000000000, [0, 0, 3, 1]⟩],
  [⟨-1718465885608439, 1000000000000000, [1, 0, 0, 1]⟩, ⟨2864109809347398, 1000000000000000, [1, 0, 0, 3]⟩],
  [⟨-1718465885608439, 1000000000000000, [0, 1, 0, 1]⟩, ⟨2864109809347398, 1000000000000000, [0, 1, 0, 3]⟩],
  [⟨-1718465885608439, 1000000000000000, [0, 0, 1, 1]⟩, ⟨2864109809347398, 1000000000000000, [0, 0, 1, 3]⟩],
  [⟨28125, 100000, [0, 0, 0, 0]⟩, ⟨-28125, 10000, [2, 0, 0, 0]⟩, ⟨328125, 100000, [4, 0, 0, 0]⟩],
  [⟨28125, 100000, [0, 0, 0, 0]⟩, ⟨-28125, 10000, [0, 2, 0, 0]⟩, ⟨328125, 100000, [0, 4, 0, 0]⟩],
  [⟨28125, 100000, [0, 0, 0, 0]⟩, ⟨-28125, 10000, [0, 0, 2, 0]⟩, ⟨328125, 100000, [0, 0, 4, 0]⟩],
  [⟨28125, 100000, [0, 0, 0, 0]⟩, ⟨-28125, 10000, [0, 0, 0, 2]⟩, ⟨328125, 100000, [0, 0, 0, 4]⟩],
  [⟨-1452368754827781, 1000000000000000, [0, 1, 1, 1]⟩, ⟨4357106264483344, 1000000000000000, [2, 1, 1, 1]⟩],
  [⟨-1452368754827781, 1000000000000000, [1, 0, 1, 1]⟩, ⟨4357106264483344, 1000000000000000, [1, 2, 1, 1]⟩],
  [⟨-1452368754827781, 1000000000000000, [1, 1, 0, 1]⟩, ⟨4357106264483344, 1000000000000000, [1, 1, 2, 1]⟩],
  [⟨-1452368754827781, 1000000000000000, [1, 1, 1, 0]⟩, ⟨4357106264483344, 1000000000000000, [1, 1, 1, 2]⟩],
  [⟨5412658773652733, 10000000000000000, [0, 0, 1, 0]⟩, ⟨-162379763209582, 100000000000000, [0, 2, 1, 0]⟩, ⟨-162379763209582, 100000000000000, [2, 0, 1, 0]⟩, ⟨487139289628746, 100000000000000, [2, 2, 1, 0]⟩],
  [⟨5412658773652733, 10000000000000000, [0, 1, 0, 0]⟩, ⟨-162379763209582, 100000000000000, [0, 1, 2, 0]⟩, ⟨-162379763209582, 100000000000000, [2, 1, 0, 0]⟩, ⟨487139289628746, 100000000000000, [2, 1, 2, 0]⟩],
  [⟨5412658773652733, 10000000000000000, [1, 0, 0, 0]⟩, ⟨-162379763209582, 100000000000000, [1, 0, 2, 0]⟩, ⟨-162379763209582, 100000000000000, [1, 2, 0, 0]⟩, ⟨487139289628746, 100000000000000, [1, 2, 2, 0]⟩],
  [⟨5412658773652733, 10000000000000000, [0, 0, 0, 1]⟩, ⟨-162379763209582, 100000000000000, [0, 2, 0, 1]⟩, ⟨-162379763209582, 100000000000000, [2, 0, 0, 1]⟩, ⟨487139289628746, 100000000000000, [2, 2, 0, 1]⟩],
  [⟨5412658773652733, 10000000000000000, [0, 0, 0, 1]⟩, ⟨-162379763209582, 100000000000000, [0, 0, 2, 1]⟩, ⟨-162379763209582, 100000000000000, [2, 0, 0, 1]⟩, ⟨487139289628746, 100000000000000, [2, 0, 2, 1]⟩],
  [⟨5412658773652733, 10000000000000000, [0, 0, 0, 1]⟩, ⟨-162379763209582, 100000000000000, [0, 0, 2, 1]⟩, ⟨-162379763209582, 100000000000000, [0, 2, 0, 1]⟩, ⟨487139289628746, 100000000000000, [0, 2, 2, 1]⟩],
  [⟨5412658773652733, 10000000000000000, [0, 1, 0, 0]⟩, ⟨-162379763209582, 100000000000000, [0, 1, 0, 2]⟩, ⟨-162379763209582, 100000000000000, [2, 1, 0, 0]⟩, ⟨487139289628746, 100000000000000, [2, 1, 0, 2]⟩],
  [⟨5412658773652733, 10000000000000000, [1, 0, 0, 0]⟩, ⟨-162379763209582, 100000000000000, [1, 0, 0, 2]⟩, ⟨-162379763209582, 100000000000000, [1, 2, 0, 0]⟩, ⟨487139289628746, 100000000000000, [1, 2, 0, 2]⟩],
  [⟨5412658773652733, 10000000000000000, [0, 0, 1, 0]⟩, ⟨-162379763209582, 100000000000000, [0, 0, 1, 2]⟩, ⟨-162379763209582, 100000000000000, [2, 0, 1, 0]⟩, ⟨487139289628746, 100000000000000, [2, 0, 1, 2]⟩],
  [⟨5412658773652733, 10000000000000000, [0, 0, 1, 0]⟩, ⟨-162379763209582, 100000000000000, [0, 0, 1, 2]⟩, ⟨-162379763209582, 100000000000000, [0, 2, 1, 0]⟩, ⟨487139289628746, 100000000000000, [0, 2, 1, 2]⟩],
  [⟨5412658773652733, 10000000000000000, [1, 0, 0, 0]⟩, ⟨-162379763209582, 100000000000000, [1, 0, 0, 2]⟩, ⟨-162379763209582, 100000000000000, [1, 0, 2, 0]⟩, ⟨487139289628746, 100000000000000, [1, 0, 2, 2]⟩],
  [⟨5412658773652733, 10000000000000000, [0, 1, 0, 0]⟩, ⟨-162379763209582, 100000000000000, [0, 1, 0, 2]⟩, ⟨-162379763209582, 100000000000000, [0, 1, 2, 0]⟩, ⟨487139289628746, 100000000000000, [0, 1, 2, 2]⟩],
  [⟨-2976470224947662, 1000000000000000, [1, 1, 1, 0]⟩, ⟨4960783708246104, 1000000000000000, [3, 1, 1, 0]⟩],
  [⟨-2976470224947662, 1000000000000000, [1, 1, 1, 0]⟩, ⟨4960783708246104, 1000000000000000, [1, 3, 1, 0]⟩],
  [⟨-2976470224947662, 1000000000000000, [1, 1, 1, 0]⟩, ⟨4960783708246104, 1000000000000000, [1, 1, 3, 0]⟩],
  [⟨-2976470224947662, 1000000000000000, [1, 1, 0, 1]⟩, ⟨4960783708246104, 1000000000000000, [3, 1, 0, 1]⟩],
  [⟨-2976470224947662, 1000000000000000, [1, 1, 0, 1]⟩, ⟨4960783708246104, 1000000000000000, [1, 3, 0, 1]⟩],
  [⟨-2976470224947662, 1000000000000000, [1, 0, 1, 1]⟩, ⟨4960783708246104, 1000000000000000, [3, 0, 1, 1]⟩],
  [⟨-2976470224947662, 1000000000000000, [0, 1, 1, 1]⟩, ⟨4960783708246104, 1000000000000000, [0, 3, 1, 1]⟩],
  [⟨-2976470224947662, 1000000000000000, [1, 0, 1, 1]⟩, ⟨4960783708246104, 1000000000000000, [1, 0, 3, 1]⟩],
  [⟨-2976470224947662, 1000000000000000, [0, 1, 1, 1]⟩, ⟨4960783708246104, 1000000000000000, [0, 1, 3, 1]⟩],
  [⟨-2976470224947662, 1000000000000000, [1, 1, 0, 1]⟩, ⟨4960783708246104, 1000000000000000, [1, 1, 0, 3]⟩],
  [⟨-2976470224947662, 1000000000000000, [1, 0, 1, 1]⟩, ⟨4960783708246104, 1000000000000000, [1, 0, 1, 3]⟩],
  [⟨-2976470224947662, 1000000000000000, [0, 1, 1, 1]⟩, ⟨4960783708246104, 1000000000000000, [0, 1, 1, 3]⟩],
  [⟨487139289628746, 1000000000000000, [0, 1, 0, 0]⟩, ⟨-487139289628746, 100000000000000, [2, 1, 0, 0]⟩, ⟨568329171233537, 100000000000000, [4, 1, 0, 0]⟩],
  [⟨487139289628746, 1000000000000000, [1, 0, 0, 0]⟩, ⟨-487139289628746, 100000000000000, [1, 2, 0, 0]⟩, ⟨568329171233537, 100000000000000, [1, 4, 0, 0]⟩],
  [⟨487139289628746, 1000000000000000, [0, 0, 1, 0]⟩, ⟨-487139289628746, 100000000000000, [2, 0, 1, 0]⟩, ⟨568329171233537, 100000000000000, [4, 0, 1, 0]⟩],
  [⟨487139289628746, 1000000000000000, [0, 0, 1, 0]⟩, ⟨-487139289628746, 100000000000000, [0, 2, 1, 0]⟩, ⟨568329171233537, 100000000000000, [0, 4, 1, 0]⟩],
  [⟨487139289628746, 1000000000000000, [1, 0, 0, 0]⟩, ⟨-487139289628746, 100000000000000, [1, 0, 2, 0]⟩, ⟨568329171233537, 100000000000000, [1, 0, 4, 0]⟩],
  [⟨487139289628746, 1000000000000000, [0, 1, 0, 0]⟩, ⟨-487139289628746, 100000000000000, [0, 1, 2, 0]⟩, ⟨568329171233537, 100000000000000, [0, 1, 4, 0]⟩],
  [⟨487139289628746, 1000000000000000, [0, 0, 0, 1]⟩, ⟨-487139289628746, 100000000000000, [2, 0, 0, 1]⟩, ⟨568329171233537, 100000000000000, [4, 0, 0, 1]⟩],
  [⟨487139289628746, 1000000000000000, [0, 0, 0, 1]⟩, ⟨-487139289628746, 100000000000000, [0, 2, 0, 1]⟩, ⟨568329171233537, 100000000000000, [0, 4, 0, 1]⟩],
  [⟨487139289628746, 1000000000000000, [0, 0, 0, 1]⟩, ⟨-487139289628746, 100000000000000, [0, 0, 2, 1]⟩, ⟨568329171233537, 100000000000000, [0, 0, 4, 1]⟩],
  [⟨487139289628746, 1000000000000000, [1, 0, 0, 0]⟩, ⟨-487139289628746, 100000000000000, [1, 0, 0, 2]⟩, ⟨568329171233537, 100000000000000, [1, 0, 0, 4]⟩],
  [⟨487139289628746, 1000000000000000, [0, 1, 0, 0]⟩, ⟨-487139289628746, 100000000000000, [0, 1, 0, 2]⟩, ⟨568329171233537, 100000000000000, [0, 1, 0, 4]⟩],
  [⟨487139289628746, 1000000000000000, [0, 0, 1, 0]⟩, ⟨-487139289628746, 100000000000000, [0, 0, 1, 2]⟩, ⟨568329171233537, 100000000000000, [0, 0, 1, 4]⟩],
  [⟨9375, 10000, [0, 0, 1, 1]⟩, ⟨-28125, 10000, [0, 2, 1, 1]⟩, ⟨-28125, 10000, [2, 0, 1, 1]⟩, ⟨84375, 10000, [2, 2, 1, 1]⟩],
  [⟨9375, 10000, [0, 1, 0, 1]⟩, ⟨-28125, 10000, [0, 1, 2, 1]⟩, ⟨-28125, 10000, [2, 1, 0, 1]⟩, ⟨84375, 10000, [2, 1, 2, 1]⟩],
  [⟨9375, 10000, [1, 0, 0, 1]⟩, ⟨-28125, 10000, [1, 0, 2, 1]⟩, ⟨-28125, 10000, [1, 2, 0, 1]⟩, ⟨84375, 10000, [1, 2, 2, 1]⟩],
  [⟨9375, 10000, [0, 1, 1, 0]⟩, ⟨-28125, 10000, [0, 1, 1, 2]⟩, ⟨-28125, 10000, [2, 1, 1, 0]⟩, ⟨84375, 10000, [2, 1, 1, 2]⟩],
  [⟨9375, 10000, [1, 0, 1, 0]⟩, ⟨-28125, 10000, [1, 0, 1, 2]⟩, ⟨-28125, 10000, [1, 2, 1, 0]⟩, ⟨84375, 10000, [1, 2, 1, 2]⟩],
  [⟨9375, 10000, [1, 1, 0, 0]⟩, ⟨-28125, 10000, [1, 1, 0, 2]⟩, ⟨-28125, 10000, [1, 1, 2, 0]⟩, ⟨84375, 10000, [1, 1, 2, 2]⟩],
  [⟨-515539765682532, 100000000000000, [1, 1, 1, 1]⟩, ⟨85923294280422, 10000000000000, [3, 1, 1, 1]⟩],
  [⟨-515539765682532, 100000000000000, [1, 1, 1, 1]⟩, ⟨85923294280422, 10000000000000, [1, 3, 1, 1]⟩],
  [⟨-515539765682532, 100000000000000, [1, 1, 1, 1]⟩, ⟨85923294280422, 10000000000000, [1, 1, 3, 1]⟩],
  [⟨-515539765682532, 100000000000000, [1, 1, 1, 1]⟩, ⟨85923294280422, 10000000000000, [1, 1, 1, 3]⟩],
  [⟨84375, 100000, [0, 1, 1, 0]⟩, ⟨-84375, 10000, [2, 1, 1, 0]⟩, ⟨984375, 100000, [4, 1, 1, 0]⟩],
  [⟨84375, 100000, [1, 0, 1, 0]⟩, ⟨-84375, 10000, [1, 2, 1, 0]⟩, ⟨984375, 100000, [1, 4, 1, 0]⟩],
  [⟨84375, 100000, [1, 1, 0, 0]⟩, ⟨-84375, 10000, [1, 1, 2, 0]⟩, ⟨984375, 100000, [1, 1, 4, 0]⟩],
  [⟨84375, 100000, [0, 1, 0, 1]⟩, ⟨-84375, 10000, [2, 1, 0, 1]⟩, ⟨984375, 100000, [4, 1, 0, 1]⟩],
  [⟨84375, 100000, [1, 0, 0, 1]⟩, ⟨-84375, 10000, [1, 2, 0, 1]⟩, ⟨984375, 100000, [1, 4, 0, 1]⟩],
  [⟨84375, 100000, [0, 0, 1, 1]⟩, ⟨-84375, 10000, [2, 0, 1, 1]⟩, ⟨984375, 100000, [4, 0, 1, 1]⟩],
  [⟨84375, 100000, [0, 0, 1, 1]⟩, ⟨-84375, 10000, [0, 2, 1, 1]⟩, ⟨984375, 100000, [0, 4, 1, 1]⟩],
  [⟨84375, 100000, [1, 0, 0, 1]⟩, ⟨-84375, 10000, [1, 0, 2, 1]⟩, ⟨984375, 100000, [1, 0, 4, 1]⟩],
  [⟨84375, 100000, [0, 1, 0, 1]⟩, ⟨-84375, 10000, [0, 1, 2, 1]⟩, ⟨984375, 100000, [0, 1, 4, 1]⟩],
  [⟨84375, 100000, [1, 1, 0, 0]⟩, ⟨-84375, 10000, [1, 1, 0, 2]⟩, ⟨984375, 100000, [1, 1, 0, 4]⟩],
  [⟨84375, 100000, [1, 0, 1, 0]⟩, ⟨-84375, 10000, [1, 0, 1, 2]⟩, ⟨984375, 100000, [1, 0, 1, 4]⟩],
  [⟨84375, 100000, [0, 1, 1, 0]⟩, ⟨-84375, 10000, [0, 1, 1, 2]⟩, ⟨984375, 100000, [0, 1, 1, 4]⟩],
  [⟨146141786888624, 100000000000000, [0, 1, 1, 1]⟩, ⟨-1461417868886241, 100000000000000, [2, 1, 1, 1]⟩, ⟨1704987513700614, 100000000000000, [4, 1, 1, 1]⟩],
  [⟨146141786888624, 100000000000000, [1, 0, 1, 1]⟩, ⟨-1461417868886241, 100000000000000, [1, 2, 1, 1]⟩, ⟨1704987513700614, 100000000000000, [1, 4, 1, 1]⟩],
  [⟨146141786888624, 100000000000000, [1, 1, 0, 1]⟩, ⟨-1461417868886241, 100000000000000, [1, 1, 2, 1]⟩, ⟨1704987513700614, 100000000000000, [1, 1, 4, 1]⟩],
  [⟨146141786888624, 100000000000000, [1, 1, 1, 0]⟩, ⟨-1461417868886241, 100000000000000, [1, 1, 1, 2]⟩, ⟨1704987513700614, 100000000000000, [1, 1, 1, 4]⟩]]

/-- computeDerivativeMatrices.py:2672-2963. -/
def nodalSer4p1 : List Poly := [
  [⟨625, 10000, [0, 0, 0, 0]⟩, ⟨-625, 10000, [0, 0, 0, 1]⟩, ⟨-625, 10000, [0, 0, 1, 0]⟩, ⟨625, 10000, [0, 0, 1, 1]⟩, ⟨-625, 10000, [0, 1, 0, 0]⟩, ⟨625, 10000, [0, 1, 0, 1]⟩, ⟨625, 10000, [0, 1, 1, 0]⟩, ⟨-625, 10000, [0, 1, 1, 1]⟩, ⟨-625, 10000, [1, 0, 0, 0]⟩, ⟨625, 10000, [1, 0, 0, 1]⟩, ⟨625, 10000, [1, 0, 1, 0]⟩, ⟨-625, 10000, [1, 0, 1, 1]⟩, ⟨625, 10000, [1, 1, 0, 0]⟩, ⟨-625, 10000, [1, 1, 0, 1]⟩, ⟨-625, 10000, [1, 1, 1, 0]⟩, ⟨625, 10000, [1, 1, 1, 1]⟩],
  [⟨625, 10000, [0, 0, 0, 0]⟩, ⟨-625, 10000, [0, 0, 0, 1]⟩, ⟨-625, 10000, [0, 0, 1, 0]⟩, ⟨625, 10000, [0, 0, 1, 1]⟩, ⟨-625, 10000, [0, 1, 0, 0]⟩, ⟨625, 10000, [0, 1, 0, 1]⟩, ⟨625, 10000, [0, 1, 1, 0]⟩, ⟨-625, 10000, [0, 1, 1, 1]⟩, ⟨625, 10000, [1, 0, 0, 0]⟩, ⟨-625, 10000, [1, 0, 0, 1]⟩, ⟨-625, 10000, [1, 0, 1, 0]⟩, ⟨625, 10000, [1, 0, 1, 1]⟩, ⟨-625, 10000, [1, 1, 0, 0]⟩, ⟨625, 10000, [1, 1, 0, 1]⟩, ⟨625, 10000, [1, 1, 1, 0]⟩, ⟨-625, 10000, [1, 1, 1, 1]⟩],
  [⟨625, 10000, [0, 0, 0, 0]⟩, ⟨-625, 10000, [0, 0, 0, 1]⟩, ⟨-625, 10000, [0, 0, 1, 0]⟩, ⟨625, 10000, [0, 0, 1, 1]⟩, ⟨625, 10000, [0, 1, 0, 0]⟩, ⟨-625, 10000, [0, 1, 0, 1]⟩, ⟨-625, 10000, [0, 1, 1, 0]⟩, ⟨625, 10000, [0, 1, 1, 1]⟩, ⟨-625, 10000, [1, 0, 0, 0]⟩, ⟨625, 10000, [1, 0, 0, 1]⟩, ⟨625, 10000, [1, 0, 1, 0]⟩, ⟨-625, 10000, [1, 0, 1, 1]⟩, ⟨-625, 10000, [1, 1, 0, 0]⟩, ⟨625, 10000, [1, 1, 0, 1]⟩, ⟨625, 10000, [1, 1, 1, 0]⟩, ⟨-625, 10000, [1, 1, 1, 1]⟩],
  [⟨625, 10000, [0, 0, 0, 0]⟩, ⟨-625, 10000, [0, 0, 0, 1]⟩, ⟨-625, 10000, [0, 0, 1, 0]⟩, ⟨625, 10000, [0, 0, 1, 1]⟩, ⟨625, 10000, [0, 1, 0, 0]⟩, ⟨-625, 10000, [0, 1, 0, 1]⟩, ⟨-625, 10000, [0, 1, 1, 0]⟩, ⟨625, 10000, [0, 1, 1, 1]⟩, ⟨625, 10000, [1, 0, 0, 0]⟩, ⟨-625, 10000, [1, 0, 0, 1]⟩, ⟨-625, 10000, [1, 0, 1, 0]⟩, ⟨625, 10000, [1, 0, 1, 1]⟩, ⟨625, 10000, [1, 1, 0, 0]⟩, ⟨-625, 10000, [1, 1, 0, 1]⟩, ⟨-625, 10000, [1, 1, 1, 0]⟩, ⟨625, 10000, [1, 1, 1, 1]⟩],
  [⟨625, 10000, [0, 0, 0, 0]⟩, ⟨-625, 10000, [0, 0, 0, 1]⟩, ⟨625, 10000, [0, 0, 1, 0]⟩, ⟨-625, 10000, [0, 0, 1, 1]⟩, ⟨-625, 10000, [0, 1, 0, 0]⟩, ⟨625, 10000, [0, 1, 0, 1]⟩, ⟨-625, 10000, [0, 1, 1, 0]⟩, ⟨625, 10000, [0, 1, 1, 1]⟩, ⟨-625, 10000, [1, 0, 0, 0]⟩, ⟨625, 10000, [1, 0, 0, 1]⟩, ⟨-625, 10000, [1, 0, 1, 0]⟩, ⟨625, 10000, [1, 0, 1, 1]⟩, ⟨625, 10000, [1, 1, 0, 0]⟩, ⟨-625, 10000, [1, 1, 0, 1]⟩, ⟨625, 10000, [1, 1, 1, 0]⟩, ⟨-625, 10000, [1, 1, 1, 1]⟩],
  [⟨625, 10000, [0, 0, 0, 0]⟩, ⟨-625, 10000, [0, 0, 0, 1]⟩, ⟨625, 10000, [0, 0, 1, 0]⟩, ⟨-625, 10000, [0, 0, 1, 1]⟩, ⟨-625, 10000, [0, 1, 0, 0]⟩, ⟨625, 10000, [0, 1, 0, 1]⟩, ⟨-625, 10000, [0, 1, 1, 0]⟩, ⟨625, 10000, [0, 1, 1, 1]⟩, ⟨625, 10000, [1, 0, 0, 0]⟩, ⟨-625, 10000, [1, 0, 0, 1]⟩, ⟨625, 10000, [1, 0, 1, 0]⟩, ⟨-625, 10000, [1, 0, 1, 1]⟩, ⟨-625, 10000, [1, 1, 0, 0]⟩, ⟨625, 10000, [1, 1, 0, 1]⟩, ⟨-625, 10000, [1, 1, 1, 0]⟩, ⟨625, 10000, [1, 1, 1, 1]⟩],
  [⟨625, 10000, [0, 0, 0, 0]⟩, ⟨-625, 10000, [0, 0, 0, 1]⟩, ⟨625, 10000, [0, 0, 1, 0]⟩, ⟨-625, 10000, [0, 0, 1, 1]⟩, ⟨625, 10000, [0, 1, 0, 0]⟩, ⟨-625, 10000, [0, 1, 0, 1]⟩, ⟨625, 10000, [0, 1, 1, 0]⟩, ⟨-625, 10000, [0, 1, 1, 1]⟩, ⟨-625, 10000, [1, 0, 0, 0]⟩, ⟨625, 10000, [1, 0, 0, 1]⟩, ⟨-625, 10000, [1, 0, 1, 0]⟩, ⟨625, 10000, [1, 0, 1, 1]⟩, ⟨-625, 10000, [1, 1, 0, 0]⟩, ⟨625, 10000, [1, 1, 0, 1]⟩, ⟨-625, 10000, [1, 1, 1, 0]⟩, ⟨625, 10000, [1, 1, 1, 1]⟩],
  [⟨625, 10000, [0, 0, 0, 0]⟩, ⟨-625, 10000, [0, 0, 0, 1]⟩, ⟨625, 10000, [0, 0, 1, 0]⟩, ⟨-625, 10000, [0, 0, 1, 1]⟩, ⟨625, 10000, [0, 1, 0, 0]⟩, ⟨-625, 10000, [0, 1, 0, 1]⟩, ⟨625, 10000, [0, 1, 1, 0]⟩, ⟨-625, 10000, [0, 1, 1, 1]⟩, ⟨625, 10000, [1, 0, 0, 0]⟩, ⟨-625, 10000, [1, 0, 0, 1]⟩, ⟨625, 10000, [1, 0, 1, 0]⟩, ⟨-625, 10000, [1, 0, 1, 1]⟩, ⟨625, 10000, [1, 1, 0, 0]⟩, ⟨-625, 10000, [1, 1, 0, 1]⟩, ⟨625, 10000, [1, 1, 1, 0]⟩, ⟨-625, 10000, [1, 1, 1, 1]⟩],
  [⟨625, 10000, [0, 0, 0, 0]⟩, ⟨625, 10000, [0, 0, 0, 1]⟩, ⟨-625, 10000, [0, 0, 1, 0]⟩, ⟨-625, 10000, [0, 0, 1, 1]⟩, ⟨-625, 10000, [0, 1, 0, 0]⟩, ⟨-625, 10000, [0, 1, 0, 1]⟩, ⟨625, 10000, [0, 1, 1, 0]⟩, ⟨625, 10000, [0, 1, 1, 1]⟩, ⟨-625, 10000, [1, 0, 0, 0]⟩, ⟨-625, 10000, [1, 0, 0, 1]⟩, ⟨625, 10000, [1, 0, 1, 0]⟩, ⟨625, 10000, [1, 0, 1, 1]⟩, ⟨625, 10000, [1, 1, 0, 0]⟩, ⟨625, 10000, [1, 1, 0, 1]⟩, ⟨-625, 10000, [1, 1, 1, 0]⟩, ⟨-625, 10000, [1, 1, 1, 1]⟩],
  [⟨625, 10000, [0, 0, 0, 0]⟩, ⟨625, 10000, [0, 0, 0, 1]⟩, ⟨-625, 10000, [0, 0, 1, 0]⟩, ⟨-625, 10000, [0, 0, 1, 1]⟩, ⟨-625, 10000, [0, 1, 0, 0]⟩, ⟨-625, 10000, [0, 1, 0, 1]⟩, ⟨625, 10000, [0, 1, 1, 0]⟩, ⟨625, 10000, [0, 1, 1, 1]⟩, ⟨625, 10000, [1, 0, 0, 0]⟩, ⟨625, 10000, [1, 0, 0, 1]⟩, ⟨-625, 10000, [1, 0, 1, 0]⟩, ⟨-625, 10000, [1, 0, 1, 1]⟩, ⟨-625, 10000, [1, 1, 0, 0]⟩, ⟨-625, 10000, [1, 1, 0, 1]⟩, ⟨625, 10000, [1, 1, 1, 0]⟩, ⟨625, 10000, [1, 1, 1, 1]⟩],
  [⟨625, 10000, [0, 0, 0, 0]⟩, ⟨625, 10000, [0, 0, 0, 1]⟩, ⟨-625, 10000, [0, 0, 1, 0]⟩, ⟨-625, 10000, [0, 0, 1, 1]⟩, ⟨625, 10000, [0, 1, 0, 0]⟩, ⟨625, 10000, [0, 1, 0, 1]⟩, ⟨-625, 10000, [0, 1, 1, 0]⟩, ⟨-625, 10000, [0, 1, 1, 1]⟩, ⟨-625, 10000, [1, 0, 0, 0]⟩, ⟨-625, 10000, [1, 0, 0, 1]⟩, ⟨625, 10000, [1, 0, 1, 0]⟩, ⟨625, 10000, [1, 0, 1, 1]⟩, ⟨-625, 10000, [1, 1, 0, 0]⟩, ⟨-625, 10000, [1, 1, 0, 1]⟩, ⟨625, 10000, [1, 1, 1, 0]⟩, ⟨625, 10000, [1, 1, 1, 1]⟩],
  [⟨625, 10000, [0, 0, 0, 0]⟩, ⟨625, 10000, [0, 0, 0, 1]⟩, ⟨-625, 10000, [0, 0, 1, 0]⟩, ⟨-625, 10000, [0, 0, 1, 1]⟩, ⟨625, 10000, [0, 1, 0, 0]⟩, ⟨625, 10000, [0, 1, 0, 1]⟩, ⟨-625, 10000, [0, 1, 1, 0]⟩, ⟨-625, 10000, [0, 1, 1, 1]⟩, ⟨625, 10000, [1, 0, 0, 0]⟩, ⟨625, 10000, [1, 0, 0, 1]⟩, ⟨-625, 10000, [1, 0, 1, 0]⟩, ⟨-625, 10000, [1, 0, 1, 1]⟩, ⟨625, 10000, [1, 1, 0, 0]⟩, ⟨625, 10000, [1, 1, 0, 1]⟩, ⟨-625, 10000, [1, 1, 1, 0]⟩, ⟨-625, 10000, [1, 1, 1, 1]⟩],
  [⟨625, 10000, [0, 0, 0, 0]⟩, ⟨625, 10000, [0, 0, 0, 1]⟩, ⟨625, 10000, [0, 0, 1, 0]⟩, ⟨625, 10000, [0, 0, 1, 1]⟩, ⟨-625, 10000, [0, 1, 0, 0]⟩, ⟨-625, 10000, [0, 1, 0, 1]⟩, ⟨-625, 10000, [0, 1, 1, 0]⟩, ⟨-625, 10000, [0, 1, 1, 1]⟩, ⟨-625, 10000, [1, 0, 0, 0]⟩, ⟨-625, 10000, [1, 0, 0, 1]⟩, ⟨-625, 10000, [1, 0, 1, 0]⟩, ⟨-625, 10000, [1, 0, 1, 1]⟩, ⟨625, 10000, [1, 1, 0, 0]⟩, ⟨625, 10000, [1, 1, 0, 1]⟩, ⟨625, 10000, [1, 1, 1, 0]⟩, ⟨625, 10000, [1, 1, 1, 1]⟩],
  [⟨625, 10000, [0, 0, 0, 0]⟩, ⟨625, 10000, [0, 0, 0, 1]⟩, ⟨625, 10000, [0, 0, 1, 0]⟩, ⟨625, 10000, [0, 0, 1, 1]⟩, ⟨-625, 10000, [0, 1, 0, 0]⟩, ⟨-625, 10000, [0, 1, 0, 1]⟩, ⟨-625, 10000, [0, 1, 1, 0]⟩, ⟨-625, 10000, [0, 1, 1, 1]⟩, ⟨625, 10000, [1, 0, 0, 0]⟩, ⟨625, 10000, [1, 0, 0, 1]⟩, ⟨625, 10000, [1, 0, 1, 0]⟩, ⟨625, 10000, [1, 0, 1, 1]⟩, ⟨-625, 10000, [1, 1, 0, 0]⟩, ⟨-625, 10000, [1, 1, 0, 1]⟩, ⟨-625, 10000, [1, 1, 1, 0]⟩, ⟨-625, 10000, [1, 1, 1, 1]⟩],
  [⟨625, 10000, [0, 0, 0, 0]⟩, ⟨625, 10000, [0, 0, 0, 1]⟩, ⟨625, 10000, [0, 0, 1, 0]⟩, ⟨625, 10000, [0, 0, 1, 1]⟩, ⟨625, 10000, [0, 1, 0, 0]⟩, ⟨625, 10000, [0, 1, 0, 1]⟩, ⟨625, 10000, [0, 1, 1, 0]⟩, ⟨625, 10000, [0, 1, 1, 1]⟩, ⟨-625, 10000, [1, 0, 0, 0]⟩, ⟨-625, 10000, [1, 0, 0, 1]⟩, ⟨-625, 10000, [1, 0, 1, 0]⟩, ⟨-625, 10000, [1, 0, 1, 1]⟩, ⟨-625, 10000, [1, 1, 0, 0]⟩, ⟨-625, 10000, [1, 1, 0, 1]⟩, ⟨-625, 10000, [1, 1, 1, 0]⟩, ⟨-625, 10000, [1, 1, 1, 1]⟩],
  [⟨625, 10000, [0, 0, 0, 0]⟩, ⟨625, 10000, [0, 0, 0, 1]⟩, ⟨625, 10000, [0, 0, 1, 0]⟩, ⟨625, 10000, [0, 0, 1, 1]⟩, ⟨625, 10000, [0, 1, 0, 0]⟩, ⟨625, 10000, [0, 1, 0, 1]⟩, ⟨625, 10000, [0, 1, 1, 0]⟩, ⟨625, 10000, [0, 1, 1, 1]⟩, ⟨625, 10000, [1, 0, 0, 0]⟩, ⟨625, 10000, [1, 0, 0, 1]⟩, ⟨625, 10000, [1, 0, 1, 0]⟩, ⟨625, 10000, [1, 0, 1, 1]⟩, ⟨625, 10000, [1, 1, 0, 0]⟩, ⟨625, 10000, [1, 1, 0, 1]⟩, ⟨625, 10000, [1, 1, 1, 0]⟩, ⟨625, 10000, [1, 1, 1, 1]⟩]]

/-- computeDerivativeMatrices.py:3009-4324. -/
def nodalSer4p2 : List Poly := [
  [⟨-1875, 10000, [0, 0, 0, 0]⟩, ⟨125, 1000, [0, 0, 0, 1]⟩, ⟨625, 10000, [0, 0, 0, 2]⟩, ⟨125, 1000, [0, 0, 1, 0]⟩, ⟨-625, 10000, [0, 0, 1, 1]⟩, ⟨-625, 10000, [0, 0, 1, 2]⟩, ⟨625, 10000, [0, 0, 2, 0]⟩, ⟨-625, 10000, [0, 0, 2, 1]⟩, ⟨125, 1000, [0, 1, 0, 0]⟩, ⟨-625, 10000, [0, 1, 0, 1]⟩, ⟨-625, 10000, [0, 1, 0, 2]⟩, ⟨-625, 10000, [0, 1, 1, 0]⟩, ⟨625, 10000, [0, 1, 1, 2]⟩, ⟨-625, 10000, [0, 1, 2, 0]⟩, ⟨625, 10000, [0, 1, 2, 1]⟩, ⟨625, 10000, [0, 2, 0, 0]⟩, ⟨-625, 10000, [0, 2, 0, 1]⟩, ⟨-625, 10000, [0, 2, 1, 0]⟩, ⟨625, 10000, [0, 2, 1, 1]⟩, ⟨125, 1000, [1, 0, 0, 0]⟩, ⟨-625, 10000, [1, 0, 0, 1]⟩, ⟨-625, 10000, [1, 0, 0, 2]⟩, ⟨-625, 10000, [1, 0, 1, 0]⟩, ⟨625, 10000, [1, 0, 1, 2]⟩, ⟨-625, 10000, [1, 0, 2, 0]⟩, ⟨625, 10000, [1, 0, 2, 1]⟩, ⟨-625, 10000, [1, 1, 0, 0]⟩, ⟨625, 10000, [1, 1, 0, 2]⟩, ⟨625, 10000, [1, 1, 1, 1]⟩, ⟨-625, 10000, [1, 1, 1, 2]⟩, ⟨625, 10000, [1, 1, 2, 0]⟩, ⟨-625, 10000, [1, 1, 2, 1]⟩, ⟨-625, 10000, [1, 2, 0, 0]⟩, ⟨625, 10000, [1, 2, 0, 1]⟩, ⟨625, 10000, [1, 2, 1, 0]⟩, ⟨-625, 10000, [1, 2, 1, 1]⟩, ⟨625, 10000, [2, 0, 0, 0]⟩, ⟨-625, 10000, [2, 0, 0, 1]⟩, ⟨-625, 10000, [2, 0, 1, 0]⟩, ⟨625, 10000, [2, 0, 1, 1]⟩, ⟨-625, 10000, [2, 1, 0, 0]⟩, ⟨625, 10000, [2, 1, 0, 1]⟩, ⟨625, 10000, [2, 1, 1, 0]⟩, ⟨-625, 10000, [2, 1, 1, 1]⟩],
  [⟨125, 1000, [0, 0, 0, 0]⟩, ⟨-125, 1000, [0, 0, 0, 1]⟩, ⟨-125, 1000, [0, 0, 1, 0]⟩, ⟨125, 1000, [0, 0, 1, 1]⟩, ⟨-125, 1000, [0, 1, 0, 0]⟩, ⟨125, 1000, [0, 1, 0, 1]⟩, ⟨125, 1000, [0, 1, 1, 0]⟩, ⟨-125, 1000, [0, 1, 1, 1]⟩, ⟨-125, 1000, [2, 0, 0, 0]⟩, ⟨125, 1000, [2, 0, 0, 1]⟩, ⟨125, 1000, [2, 0, 1, 0]⟩, ⟨-125, 1000, [2, 0, 1, 1]⟩, ⟨125, 1000, [2, 1, 0, 0]⟩, ⟨-125, 1000, [2, 1, 0, 1]⟩, ⟨-125, 1000, [2, 1, 1, 0]⟩, ⟨125, 1000, [2, 1, 1, 1]⟩],
  [⟨-1875, 10000, [0, 0, 0, 0]⟩, ⟨125, 1000, [0, 0, 0, 1]⟩, ⟨625, 10000, [0, 0, 0, 2]⟩, ⟨125, 1000, [0, 0, 1, 0]⟩, ⟨-625, 10000, [0, 0, 1, 1]⟩, ⟨-625, 10000, [0, 0, 1, 2]⟩, ⟨625, 10000, [0, 0, 2, 0]⟩, ⟨-625, 10000, [0, 0, 2, 1]⟩, ⟨125, 1000, [0, 1, 0, 0]⟩, ⟨-625, 10000, [0, 1, 0, 1]⟩, ⟨-625, 10000, [0, 1, 0, 2]⟩, ⟨-625, 10000, [0, 1, 1, 0]⟩, ⟨625, 10000, [0, 1, 1, 2]⟩, ⟨-625, 10000, [0, 1, 2, 0]⟩, ⟨625, 10000, [0, 1, 2, 1]⟩, ⟨625, 10000, [0, 2, 0, 0]⟩, ⟨-625, 10000, [0, 2, 0, 1]⟩, ⟨-625, 10000, [0, 2, 1, 0]⟩, ⟨625, 10000, [0, 2, 1, 1]⟩, ⟨-125, 1000, [1, 0, 0, 0]⟩, ⟨625, 10000, [1, 0, 0, 1]⟩, ⟨625, 10000, [1, 0, 0, 2]⟩, ⟨625, 10000, [1, 0, 1, 0]⟩, ⟨-625, 10000, [1, 0, 1, 2]⟩, ⟨625, 10000, [1, 0, 2, 0]⟩, ⟨-625, 10000, [1, 0, 2, 1]⟩, ⟨625, 10000, [1, 1, 0, 0]⟩, ⟨-625, 10000, [1, 1, 0, 2]⟩, ⟨-625, 10000, [1, 1, 1, 1]⟩, ⟨625, 10000, [1, 1, 1, 2]⟩, ⟨-625, 10000, [1, 1, 2, 0]⟩, ⟨625, 10000, [1, 1, 2, 1]⟩, ⟨625, 10000, [1, 2, 0, 0]⟩, ⟨-625, 10000, [1, 2, 0, 1]⟩, ⟨-625, 10000, [1, 2, 1, 0]⟩, ⟨625, 10000, [1, 2, 1, 1]⟩, ⟨625, 10000, [2, 0, 0, 0]⟩, ⟨-625, 10000, [2, 0, 0, 1]⟩, ⟨-625, 10000, [2, 0, 1, 0]⟩, ⟨625, 10000, [2, 0, 1, 1]⟩, ⟨-625, 10000, [2, 1, 0, 0]⟩, ⟨625, 10000, [2, 1, 0, 1]⟩, ⟨625, 10000, [2, 1, 1, 0]⟩, ⟨-625, 10000, [2, 1, 1, 1]⟩],
  [⟨125, 1000, [0, 0, 0, 0]⟩, ⟨-125, 1000, [0, 0, 0, 1]⟩, ⟨-125, 1000, [0, 0, 1, 0]⟩, ⟨125, 1000, [0, 0, 1, 1]⟩, ⟨-125, 1000, [0, 2, 0, 0]⟩, ⟨125, 1000, [0, 2, 0, 1]⟩, ⟨125, 1000, [0, 2, 1, 0]⟩, ⟨-125, 1000, [0, 2, 1, 1]⟩, ⟨-125, 1000, [1, 0, 0, 0]⟩, ⟨125, 1000, [1, 0, 0, 1]⟩, ⟨125, 1000, [1, 0, 1, 0]⟩, ⟨-125, 1000, [1, 0, 1, 1]⟩, ⟨125, 1000, [1, 2, 0, 0]⟩, ⟨-125, 1000, [1, 2, 0, 1]⟩, ⟨-125, 1000, [1, 2, 1, 0]⟩, ⟨125, 1000, [1, 2, 1, 1]⟩],
  [⟨125, 1000, [0, 0, 0, 0]⟩, ⟨-125, 1000, [0, 0, 0, 1]⟩, ⟨-125, 1000, [0, 0, 1, 0]⟩, ⟨125, 1000, [0, 0, 1, 1]⟩, ⟨-125, 1000, [0, 2, 0, 0]⟩, ⟨125, 1000, [0, 2, 0, 1]⟩, ⟨125, 1000, [0, 2, 1, 0]⟩, ⟨-125, 1000, [0, 2, 1, 1]⟩, ⟨125, 1000, [1, 0, 0, 0]⟩, ⟨-125, 1000, [1, 0, 0, 1]⟩, ⟨-125, 1000, [1, 0, 1, 0]⟩, ⟨125, 1000, [1, 0, 1, 1]⟩, ⟨-125, 1000, [1, 2, 0, 0]⟩, ⟨125, 1000, [1, 2, 0, 1]⟩, ⟨125, 1000, [1, 2, 1, 0]⟩, ⟨-125, 1000, [1, 2, 1, 1]⟩],
  [⟨-1875, 10000, [0, 0, 0, 0]⟩, ⟨125, 1000, [0, 0, 0, 1]⟩, ⟨625, 10000, [0, 0, 0, 2]⟩, ⟨125, 1000, [0, 0, 1, 0]⟩, ⟨-625, 10000, [0, 0, 1, 1]⟩, ⟨-625, 10000, [0, 0, 1, 2]⟩, ⟨625, 10000, [0, 0, 2, 0]⟩, ⟨-625, 10000, [0, 0, 2, 1]⟩, ⟨-125, 1000, [0, 1, 0, 0]⟩, ⟨625, 10000, [0, 1, 0, 1]⟩, ⟨625, 10000, [0, 1, 0, 2]⟩, ⟨625, 10000, [0, 1, 1, 0]⟩, ⟨-625, 10000, [0, 1, 1, 2]⟩, ⟨625, 10000, [0, 1, 2, 0]⟩, ⟨-625, 10000, [0, 1, 2, 1]⟩, ⟨625, 10000, [0, 2, 0, 0]⟩, ⟨-625, 10000, [0, 2, 0, 1]⟩, ⟨-625, 10000, [0, 2, 1, 0]⟩, ⟨625, 10000, [0, 2, 1, 1]⟩, ⟨125, 1000, [1, 0, 0, 0]⟩, ⟨-625, 10000, [1, 0, 0, 1]⟩, ⟨-625, 10000, [1, 0, 0, 2]⟩, ⟨-625, 10000, [1, 0, 1, 0]⟩, ⟨625, 10000, [1, 0, 1, 2]⟩, ⟨-625, 10000, [1, 0, 2, 0]⟩, ⟨625, 10000, [1, 0, 2, 1]⟩, ⟨625, 10000, [1, 1, 0, 0]⟩, ⟨-625, 10000, [1, 1, 0, 2]⟩, ⟨-625, 10000, [1, 1, 1, 1]⟩, ⟨625, 10000, [1, 1, 1, 2]⟩, ⟨-625, 10000, [1, 1, 2, 0]⟩, ⟨625, 10000, [1, 1, 2, 1]⟩, ⟨-625, 10000, [1, 2, 0, 0]⟩, ⟨625, 10000, [1, 2, 0, 1]⟩, ⟨625, 10000, [1, 2, 1, 0]⟩, ⟨-625, 10000, [1, 2, 1, 1]⟩, ⟨625, 10000, [2, 0, 0, 0]⟩, ⟨-625, 10000, [2, 0, 0, 1]⟩, ⟨-625, 10000, [2, 0, 1, 0]⟩, ⟨625, 10000, [2, 0, 1, 1]⟩, ⟨625, 10000, [2, 1, 0, 0]⟩, ⟨-625, 10000, [2, 1, 0, 1]⟩, ⟨-625, 10000, [2, 1, 1, 0]⟩, ⟨625, 10000, [2, 1, 1, 1]⟩],
  [⟨125, 1000, [0, 0, 0, 0]⟩, ⟨-125, 1000, [0, 0, 0, 1]⟩, ⟨-125, 1000, [0, 0, 1, 0]⟩, ⟨125, 1000, [0, 0, 1, 1]⟩, ⟨125, 1000, [0, 1, 0, 0]⟩, ⟨-125, 1000, [0, 1, 0, 1]⟩, ⟨-125, 1000, [0, 1, 1, 0]⟩, ⟨125, 1000, [0, 1, 1, 1]⟩, ⟨-125, 1000, [2, 0, 0, 0]⟩, ⟨125, 1000, [2, 0, 0, 1]⟩, ⟨125, 1000, [2, 0, 1, 0]⟩, ⟨-125, 1000, [2, 0, 1, 1]⟩, ⟨-125, 1000, [2, 1, 0, 0]⟩, ⟨125, 1000, [2, 1, 0, 1]⟩, ⟨125, 1000, [2, 1, 1, 0]⟩, ⟨-125, 1000, [2, 1, 1, 1]⟩],
  [⟨-1875, 10000, [0, 0, 0, 0]⟩, ⟨125, 1000, [0, 0, 0, 1]⟩, ⟨625, 10000, [0, 0, 0, 2]⟩, ⟨125, 1000, [0, 0, 1, 0]⟩, ⟨-625, 10000, [0, 0, 1, 1]⟩, ⟨-625, 10000, [0, 0, 1, 2]⟩, ⟨625, 10000, [0, 0, 2, 0]⟩, ⟨-625, 10000, [0, 0, 2, 1]⟩, ⟨-125, 1000, [0, 1, 0, 0]⟩, ⟨625, 10000, [0, 1, 0, 1]⟩, ⟨625, 10000, [0, 1, 0, 2]⟩, ⟨625, 10000, [0, 1, 1, 0]⟩, ⟨-625, 10000, [0, 1, 1, 2]⟩, ⟨625, 10000, [0, 1, 2, 0]⟩, ⟨-625, 10000, [0, 1, 2, 1]⟩, ⟨625, 10000, [0, 2, 0, 0]⟩, ⟨-625, 10000, [0, 2, 0, 1]⟩, ⟨-625, 10000, [0, 2, 1, 0]⟩, ⟨625, 10000, [0, 2, 1, 1]⟩, ⟨-125, 1000, [1, 0, 0, 0]⟩, ⟨625, 10000, [1, 0, 0, 1]⟩, ⟨625, 10000, [1, 0, 0, 2]⟩, ⟨625, 10000, [1, 0, 1, 0]⟩, ⟨-625, 10000, [1, 0, 1, 2]⟩, ⟨625, 10000, [1, 0, 2, 0]⟩, ⟨-625, 10000, [1, 0, 2, 1]⟩, ⟨-625, 10000, [1, 1, 0, 0]⟩, ⟨625, 10000, [1, 1, 0, 2]⟩, ⟨625, 10000, [1, 1, 1, 1]⟩, ⟨-625, 10000, [1, 1, 1, 2]⟩, ⟨625, 10000, [1, 1, 2, 0]⟩, ⟨-625, 10000, [1, 1, 2, 1]⟩, ⟨625, 10000, [1, 2, 0, 0]⟩, ⟨-625, 10000, [1, 2, 0, 1]⟩, ⟨-625, 10000, [1, 2, 1, 0]⟩, ⟨625, 10000, [1, 2, 1, 1]⟩, ⟨625, 10000, [2, 0, 0, 0]⟩, ⟨-625, 10000, [2, 0, 0, 1]⟩, ⟨-625, 10000, [2, 0, 1, 0]⟩, ⟨625, 10000, [2, 0, 1, 1]⟩, ⟨625, 10000, [2, 1, 0, 0]⟩, ⟨-625, 10000, [2, 1, 0, 1]⟩, ⟨-625, 10000, [2, 1, 1, 0]⟩, ⟨625, 10000, [2, 1, 1, 1]⟩],
  [⟨125, 1000, [0, 0, 0, 0]⟩, ⟨-125, 1000, [0, 0, 0, 1]⟩, ⟨-125, 1000, [0, 0, 2, 0]⟩, ⟨125, 1000, [0, 0, 2, 1]⟩, ⟨-125, 1000, [0, 1, 0, 0]⟩, ⟨125, 1000, [0, 1, 0, 1]⟩, ⟨125, 1000, [0, 1, 2, 0]⟩, ⟨-125, 1000, [0, 1, 2, 1]⟩, ⟨-125, 1000, [1, 0, 0, 0]⟩, ⟨125, 1000, [1, 0, 0, 1]⟩, ⟨125, 1000, [1, 0, 2, 0]⟩, ⟨-125, 1000, [1, 0, 2, 1]⟩, ⟨125, 1000, [1, 1, 0, 0]⟩, ⟨-125, 1000, [1, 1, 0, 1]⟩, ⟨-125, 1000, [1, 1, 2, 0]⟩, ⟨125, 1000, [1, 1, 2, 1]⟩],
  [⟨125, 1000, [0, 0, 0, 0]⟩, ⟨-125, 1000, [0, 0, 0, 1]⟩, ⟨-125, 1000, [0, 0, 2, 0]⟩, ⟨125, 1000, [0, 0, 2, 1]⟩, ⟨-125, 1000, [0, 1, 0, 0]⟩, ⟨125, 1000, [0, 1, 0, 1]⟩, ⟨125, 1000, [0, 1, 2, 0]⟩, ⟨-125, 1000, [0, 1, 2, 1]⟩, ⟨125, 1000, [1, 0, 0, 0]⟩, ⟨-125, 1000, [1, 0, 0, 1]⟩, ⟨-125, 1000, [1, 0, 2, 0]⟩, ⟨125, 1000, [1, 0, 2, 1]⟩, ⟨-125, 1000, [1, 1, 0, 0]⟩, ⟨125, 1000, [1, 1, 0, 1]⟩, ⟨125, 1000, [1, 1, 2, 0]⟩, ⟨-125, 1000, [1, 1, 2, 1]⟩],
  [⟨125, 1000, [0, 0, 0, 0]⟩, ⟨-125, 1000, [0, 0, 0, 1]⟩, ⟨-125, 1000, [0, 0, 2, 0]⟩, ⟨125, 1000, [0, 0, 2, 1]⟩, ⟨125, 1000, [0, 1, 0, 0]⟩, ⟨-125, 1000, [0, 1, 0, 1]⟩, ⟨-125, 1000, [0, 1, 2, 0]⟩, ⟨125, 1000, [0, 1, 2, 1]⟩, ⟨-125, 1000, [1, 0, 0, 0]⟩, ⟨125, 1000, [1, 0, 0, 1]⟩, ⟨125, 1000, [1, 0, 2, 0]⟩, ⟨-125, 1000, [1, 0, 2, 1]⟩, ⟨-125, 1000, [1, 1, 0, 0]⟩, ⟨125, 1000, [1, 1, 0, 1]⟩, ⟨125, 1000, [1, 1, 2, 0]⟩, ⟨-125, 1000, [1, 1, 2, 1]⟩],
  [⟨125, 1000, [0, 0, 0, 0]⟩, ⟨-125, 1000, [0, 0, 0, 1]⟩, ⟨-125, 1000, [0, 0, 2, 0]⟩, ⟨125, 1000, [0, 0, 2, 1]⟩, ⟨125, 1000, [0, 1, 0, 0]⟩, ⟨-125, 1000, [0, 1, 0, 1]⟩, ⟨-125, 1000, [0, 1, 2, 0]⟩, ⟨125, 1000, [0, 1, 2, 1]⟩, ⟨125, 1000, [1, 0, 0, 0]⟩, ⟨-125, 1000, [1, 0, 0, 1]⟩, ⟨-125, 1000, [1, 0, 2, 0]⟩, ⟨125, 1000, [1, 0, 2, 1]⟩, ⟨125, 1000, [1, 1, 0, 0]⟩, ⟨-125, 1000, [1, 1, 0, 1]⟩, ⟨-125, 1000, [1, 1, 2, 0]⟩, ⟨125, 1000, [1, 1, 2, 1]⟩],
  [⟨-1875, 10000, [0, 0, 0, 0]⟩, ⟨125, 1000, [0, 0, 0, 1]⟩, ⟨625, 10000, [0, 0, 0, 2]⟩, ⟨-125, 1000, [0, 0, 1, 0]⟩, ⟨625, 10000, [0, 0, 1, 1]⟩, ⟨625, 10000, [0, 0, 1, 2]⟩, ⟨625, 10000, [0, 0, 2, 0]⟩, ⟨-625, 10000, [0, 0, 2, 1]⟩, ⟨125, 1000, [0, 1, 0, 0]⟩, ⟨-625, 10000, [0, 1, 0, 1]⟩, ⟨-625, 10000, [0, 1, 0, 2]⟩, ⟨625, 10000, [0, 1, 1, 0]⟩, ⟨-625, 10000, [0, 1, 1, 2]⟩, ⟨-625, 10000, [0, 1, 2, 0]⟩, ⟨625, 10000, [0, 1, 2, 1]⟩, ⟨625, 10000, [0, 2, 0, 0]⟩, ⟨-625, 10000, [0, 2, 0, 1]⟩, ⟨625, 10000, [0, 2, 1, 0]⟩, ⟨-625, 10000, [0, 2, 1, 1]⟩, ⟨125, 1000, [1, 0, 0, 0]⟩, ⟨-625, 10000, [1, 0, 0, 1]⟩, ⟨-625, 10000, [1, 0, 0, 2]⟩, ⟨625, 10000, [1, 0, 1, 0]⟩, ⟨-625, 10000, [1, 0, 1, 2]⟩, ⟨-625, 10000, [1, 0, 2, 0]⟩, ⟨625, 10000, [1, 0, 2, 1]⟩, ⟨-625, 10000, [1, 1, 0, 0]⟩, ⟨625, 10000, [1, 1, 0, 2]⟩, ⟨-625, 10000, [1, 1, 1, 1]⟩, ⟨625, 10000, [1, 1, 1, 2]⟩, ⟨625, 10000, [1, 1, 2, 0]⟩, ⟨-625, 10000, [1, 1, 2, 1]⟩, ⟨-625, 10000, [1, 2, 0, 0]⟩, ⟨625, 10000, [1, 2, 0, 1]⟩, ⟨-625, 10000, [1, 2, 1, 0]⟩, ⟨625, 10000, [1, 2, 1, 1]⟩, ⟨625, 10000, [2, 0, 0, 0]⟩, ⟨-625, 10000, [2, 0, 0, 1]⟩, ⟨625, 10000, [2, 0, 1, 0]⟩, ⟨-625, 10000, [2, 0, 1, 1]⟩, ⟨-625, 10000, [2, 1, 0, 0]⟩, ⟨625, 10000, [2, 1, 0, 1]⟩, ⟨-625, 10000, [2, 1, 1, 0]⟩, ⟨625, 10000, [2, 1, 1, 1]⟩],
  [⟨125, 1000, [0, 0, 0, 0]⟩, ⟨-125, 1000, [0, 0, 0, 1]⟩, ⟨125, 1000, [0, 0, 1, 0]⟩, ⟨-125, 1000, [0, 0, 1, 1]⟩, ⟨-125, 1000, [0, 1, 0, 0]⟩, ⟨125, 1000, [0, 1, 0, 1]⟩, ⟨-125, 1000, [0, 1, 1, 0]⟩, ⟨125, 1000, [0, 1, 1, 1]⟩, ⟨-125, 1000, [2, 0, 0, 0]⟩, ⟨125, 1000, [2, 0, 0, 1]⟩, ⟨-125, 1000, [2, 0, 1, 0]⟩, ⟨125, 1000, [2, 0, 1, 1]⟩, ⟨125, 1000, [2, 1, 0, 0]⟩, ⟨-125, 1000, [2, 1, 0, 1]⟩, ⟨125, 1000, [2, 1, 1, 0]⟩, ⟨-125, 1000, [2, 1, 1, 1]⟩],
  [⟨-1875, 10000, [0, 0, 0, 0]⟩, ⟨125, 1000, [0, 0, 0, 1]⟩, ⟨625, 10000, [0, 0, 0, 2]⟩, ⟨-125, 1000, [0, 0, 1, 0]⟩, ⟨625, 10000, [0, 0, 1, 1]⟩, ⟨625, 10000, [0, 0, 1, 2]⟩, ⟨625, 10000, [0, 0, 2, 0]⟩, ⟨-625, 10000, [0, 0, 2, 1]⟩, ⟨125, 1000, [0, 1, 0, 0]⟩, ⟨-625, 10000, [0, 1, 0, 1]⟩, ⟨-625, 10000, [0, 1, 0, 2]⟩, ⟨625, 10000, [0, 1, 1, 0]⟩, ⟨-625, 10000, [0, 1, 1, 2]⟩, ⟨-625, 10000, [0, 1, 2, 0]⟩, ⟨625, 10000, [0, 1, 2, 1]⟩, ⟨625, 10000, [0, 2, 0, 0]⟩, ⟨-625, 10000, [0, 2, 0, 1]⟩, ⟨625, 10000, [0, 2, 1, 0]⟩, ⟨-625, 10000, [0, 2, 1, 1]⟩, ⟨-125, 1000, [1, 0, 0, 0]⟩, ⟨625, 10000, [1, 0, 0, 1]⟩, ⟨625, 10000, [1, 0, 0, 2]⟩, ⟨-625, 10000, [1, 0, 1, 0]⟩, ⟨625, 10000, [1, 0, 1, 2]⟩, ⟨625, 10000, [1, 0, 2, 0]⟩, ⟨-625, 10000, [1, 0, 2, 1]⟩, ⟨625, 10000, [1, 1, 0, 0]⟩, ⟨-625, 10000, [1, 1, 0, 2]⟩, ⟨625, 10000, [1, 1, 1, 1]⟩, ⟨-625, 10000, [1, 1, 1, 2]⟩, ⟨-625, 10000, [1, 1, 2, 0]⟩, ⟨625, 10000, [1, 1, 2, 1]⟩, ⟨625, 10000, [1, 2, 0, 0]⟩, ⟨-625, 10000, [1, 2, 0, 1]⟩, ⟨625, 10000, [1, 2, 1, 0]⟩, ⟨-625, 10000, [1, 2, 1, 1]⟩, ⟨625, 10000, [2, 0, 0, 0]⟩, ⟨-625, 10000, [2, 0, 0, 1]⟩, ⟨625, 10000, [2, 0, 1, 0]⟩, ⟨-625, 10000, [2, 0, 1, 1]⟩, ⟨-625, 10000, [2, 1, 0, 0]⟩, ⟨625, 10000, [2, 1, 0, 1]⟩, ⟨-625, 10000, [2, 1, 1, 0]⟩, ⟨625, 10000, [2, 1, 1, 1]⟩],
  [⟨125, 1000, [0, 0, 0, 0]⟩, ⟨-125, 1000, [0, 0, 0, 1]⟩, ⟨125, 1000, [0, 0, 1, 0]⟩, ⟨-125, 1000, [0, 0, 1, 1]⟩, ⟨-125, 1000, [0, 2, 0, 0]⟩, ⟨125, 1000, [0, 2, 0, 1]⟩, ⟨-125, 1000, [0, 2, 1, 0]⟩, ⟨125, 1000, [0, 2, 1, 1]⟩, ⟨-125, 1000, [1, 0, 0, 0]⟩, ⟨125, 1000, [1, 0, 0, 1]⟩, ⟨-125, 1000, [1, 0, 1, 0]⟩, ⟨125, 1000, [1, 0, 1, 1]⟩, ⟨125, 1000, [1, 2, 0, 0]⟩, ⟨-125, 1000, [1, 2, 0, 1]⟩, ⟨125, 1000, [1, 2, 1, 0]⟩, ⟨-125, 1000, [1, 2, 1, 1]⟩],
  [⟨125, 1000, [0, 0, 0, 0]⟩, ⟨-125, 1000, [0, 0, 0, 1]⟩, ⟨125, 1000, [0, 0, 1, 0]⟩, ⟨-125, 1000, [0, 0, 1, 1]⟩, ⟨-125, 1000, [0, 2, 0, 0]⟩, ⟨125, 1000, [0, 2, 0, 1]⟩, ⟨-125, 1000, [0, 2, 1, 0]⟩, ⟨125, 1000, [0, 2, 1, 1]⟩, ⟨125, 1000, [1, 0, 0, 0]⟩, ⟨-125, 1000, [1, 0, 0, 1]⟩, ⟨125, 1000, [1, 0, 1, 0]⟩, ⟨-125, 1000, [1, 0, 1, 1]⟩, ⟨-125, 1000, [1, 2, 0, 0]⟩, ⟨125, 1000, [1, 2, 0, 1]⟩, ⟨-125, 1000, [1, 2, 1, 0]⟩, ⟨125, 1000, [1, 2, 1, 1]⟩],
  [⟨-1875, 10000, [0, 0, 0, 0]⟩, ⟨125, 1000, [0, 0, 0, 1]⟩, ⟨625, 10000, [0, 0, 0, 2]⟩, ⟨-125, 1000, [0, 0, 1, 0]⟩, ⟨625, 10000, [0, 0, 1, 1]⟩, ⟨625, 10000, [0, 0, 1, 2]⟩, ⟨625, 10000, [0, 0, 2, 0]⟩, ⟨-625, 10000, [0, 0, 2, 1]⟩, ⟨-125, 1000, [0, 1, 0, 0]⟩, ⟨625, 10000, [0, 1, 0, 1]⟩, ⟨625, 10000, [0, 1, 0, 2]⟩, ⟨-625, 10000, [0, 1, 1, 0]⟩, ⟨625, 10000, [0, 1, 1, 2]⟩, ⟨625, 10000, [0, 1, 2, 0]⟩, ⟨-625, 10000, [0, 1, 2, 1]⟩, ⟨625, 10000, [0, 2, 0, 0]⟩, ⟨-625, 10000, [0, 2, 0, 1]⟩, ⟨625, 10000, [0, 2, 1, 0]⟩, ⟨-625, 10000, [0, 2, 1, 1]⟩, ⟨125, 1000, [1, 0, 0, 0]⟩, ⟨-625, 10000, [1, 0, 0, 1]⟩, ⟨-625, 10000, [1, 0, 0, 2]⟩, ⟨625, 10000, [1, 0, 1, 0]⟩, ⟨-625, 10000, [1, 0, 1, 2]⟩, ⟨-625, 10000, [1, 0, 2, 0]⟩, ⟨625, 10000, [1, 0, 2, 1]⟩, ⟨625, 10000, [1, 1, 0, 0]⟩, ⟨-625, 10000, [1, 1, 0, 2]⟩, ⟨625, 10000, [1, 1, 1, 1]⟩, ⟨-625, 10000, [1, 1, 1, 2]⟩, ⟨-625, 10000, [1, 1, 2, 0]⟩, ⟨625, 10000, [1, 1, 2, 1]⟩, ⟨-625, 10000, [1, 2, 0, 0]⟩, ⟨625, 10000, [1, 2, 0, 1]⟩, ⟨-625, 10000, [1, 2, 1, 0]⟩, ⟨625, 10000, [1, 2, 1, 1]⟩, ⟨625, 10000, [2, 0, 0, 0]⟩, ⟨-625, 10000, [2, 0, 0, 1]⟩, ⟨625, 10000, [2, 0, 1, 0]⟩, ⟨-625, 10000, [2, 0, 1, 1]⟩, ⟨625, 10000, [2, 1, 0, 0]⟩, ⟨-625, 10000, [2, 1, 0, 1]⟩, ⟨625, 10000, [2, 1, 1, 0]⟩, ⟨-625, 10000, [2, 1, 1, 1]⟩],
  [⟨125, 1000, [0, 0, 0, 0]⟩, ⟨-125, 1000, [0, 0, 0, 1]⟩, ⟨125, 1000, [0, 0, 1, 0]⟩, ⟨-125, 1000, [0, 0, 1, 1]⟩, ⟨125, 1000, [0, 1, 0, 0]⟩, ⟨-125, 1000, [0, 1, 0, 1]⟩, ⟨125, 1000, [0, 1, 1, 0]⟩, ⟨-125, 1000, [0, 1, 1, 1]⟩, ⟨-125, 1000, [2, 0, 0, 0]⟩, ⟨125, 1000, [2, 0, 0, 1]⟩, ⟨-125, 1000, [2, 0, 1, 0]⟩, ⟨125, 1000, [2, 0, 1, 1]⟩, ⟨-125, 1000, [2, 1, 0, 0]⟩, ⟨125, 1000, [2, 1, 0, 1]⟩, ⟨-125, 1000, [2, 1, 1, 0]⟩, ⟨125, 1000, [2, 1, 1, 1]⟩],
  [⟨-1875, 10000, [0, 0, 0, 0]⟩, ⟨125, 1000, [0, 0, 0, 1]⟩, ⟨625, 10000, [0, 0, 0, 2]⟩, ⟨-125, 1000, [0, 0, 1, 0]⟩, ⟨625, 10000, [0, 0, 1, 1]⟩, ⟨625, 10000, [0, 0, 1, 2]⟩, ⟨625, 10000, [0, 0, 2, 0]⟩, ⟨-625, 10000, [0, 0, 2, 1]⟩, ⟨-125, 1000, [0, 1, 0, 0]⟩, ⟨625, 10000, [0, 1, 0, 1]⟩, ⟨625, 10000, [0, 1, 0, 2]⟩, ⟨-625, 10000, [0, 1, 1, 0]⟩, ⟨625, 10000, [0, 1, 1, 2]⟩, ⟨625, 10000, [0, 1, 2, 0]⟩, ⟨-625, 10000, [0, 1, 2, 1]⟩, ⟨625, 10000, [0, 2, 0, 0]⟩, ⟨-625, 10000, [0, 2, 0, 1]⟩, ⟨625, 10000, [0, 2, 1, 0]⟩, ⟨-625, 10000, [0, 2, 1, 1]⟩, ⟨-125, 1000, [1, 0, 0, 0]⟩, ⟨625, 10000, [1, 0, 0, 1]⟩, ⟨625, 10000, [1, 0, 0, 2]⟩, ⟨-625, 10000, [1, 0, 1, 0]⟩, ⟨625, 10000, [1, 0, 1, 2]⟩, ⟨625, 10000, [1, 0, 2, 0]⟩, ⟨-625, 10000, [1, 0, 2, 1]⟩, ⟨-625, 10000, [1, 1, 0, 0]⟩, ⟨625, 10000, [1, 1, 0, 2]⟩, ⟨-625, 10000, [1, 1, 1, 1]⟩, ⟨625, 10000, [1, 1, 1, 2]⟩, ⟨625, 10000, [1, 1, 2, 0]⟩, ⟨-625, 10000, [1, 1, 2, 1]⟩, ⟨625, 10000, [1, 2, 0, 0]⟩, ⟨-625, 10000, [1, 2, 0, 1]⟩, ⟨625, 10000, [1, 2, 1, 0]⟩, ⟨-625, 10000, [1, 2, 1, 1]⟩, ⟨625, 10000, [2, 0, 0, 0]⟩, ⟨-625, 10000, [2, 0, 0, 1]⟩, ⟨625, 10000, [2, 0, 1, 0]⟩, ⟨-625, 10000, [2, 0, 1, 1]⟩, ⟨625, 10000, [2, 1, 0, 0]⟩, ⟨-625, 10000, [2, 1, 0, 1]⟩, ⟨625, 10000, [2, 1, 1, 0]⟩, ⟨-625, 10000, [2, 1, 1, 1]⟩],
  [⟨125, 1000, [0, 0, 0, 0]⟩, ⟨-125, 1000, [0, 0, 0, 2]⟩, ⟨-125, 1000, [0, 0, 1, 0]⟩, ⟨125, 1000, [0, 0, 1, 2]⟩, ⟨-125, 1000, [0, 1, 0, 0]⟩, ⟨125, 1000, [0, 1, 0, 2]⟩, ⟨125, 1000, [0, 1, 1, 0]⟩, ⟨-125, 1000, [0, 1, 1, 2]⟩, ⟨-125, 1000, [1, 0, 0, 0]⟩, ⟨125, 1000, [1, 0, 0, 2]⟩, ⟨125, 1000, [1, 0, 1, 0]⟩, ⟨-125, 1000, [1, 0, 1, 2]⟩, ⟨125, 1000, [1, 1, 0, 0]⟩, ⟨-125, 1000, [1, 1, 0, 2]⟩, ⟨-125, 1000, [1, 1, 1, 0]⟩, ⟨125, 1000, [1, 1, 1, 2]⟩],
  [⟨125, 1000, [0, 0, 0, 0]⟩, ⟨-125, 1000, [0, 0, 0, 2]⟩, ⟨-125, 1000, [0, 0, 1, 0]⟩, ⟨125, 1000, [0, 0, 1, 2]⟩, ⟨-125, 1000, [0, 1, 0, 0]⟩, ⟨125, 1000, [0, 1, 0, 2]⟩, ⟨125, 1000, [0, 1, 1, 0]⟩, ⟨-125, 1000, [0, 1, 1, 2]⟩, ⟨125, 1000, [1, 0, 0, 0]⟩, ⟨-125, 1000, [1, 0, 0, 2]⟩, ⟨-125, 1000, [1, 0, 1, 0]⟩, ⟨125, 1000, [1, 0, 1, 2]⟩, ⟨-125, 1000, [1, 1, 0, 0]⟩, ⟨125, 1000, [1, 1, 0, 2]⟩, ⟨125, 1000, [1, 1, 1, 0]⟩, ⟨-125, 1000, [1, 1, 1, 2]⟩],
  [⟨125, 1000, [0, 0, 0, 0]⟩, ⟨-125, 1000, [0, 0, 0, 2]⟩, ⟨-125, 1000, [0, 0, 1, 0]⟩, ⟨125, 1000, [0, 0, 1, 2]⟩, ⟨125, 1000, [0, 1, 0, 0]⟩, ⟨-125, 1000, [0, 1, 0, 2]⟩, ⟨-125, 1000, [0, 1, 1, 0]⟩, ⟨125, 1000, [0, 1, 1, 2]⟩, ⟨-125, 1000, [1, 0, 0, 0]⟩, ⟨125, 1000, [1, 0, 0, 2]⟩, ⟨125, 1000, [1, 0, 1, 0]⟩, ⟨-125, 1000, [1, 0, 1, 2]⟩, ⟨-125, 1000, [1, 1, 0, 0]⟩, ⟨125, 1000, [1, 1, 0, 2]⟩, ⟨125, 1000, [1, 1, 1, 0]⟩, ⟨-125, 1000, [1, 1, 1, 2]⟩],
  [⟨125, 1000, [0, 0, 0, 0]⟩, ⟨-125, 1000, [0, 0, 0, 2]⟩, ⟨-125, 1000, [0, 0, 1, 0]⟩, ⟨125, 1000, [0, 0, 1, 2]⟩, ⟨125, 1000, [0, 1, 0, 0]⟩, ⟨-125, 1000, [0, 1, 0, 2]⟩, ⟨-125, 1000, [0, 1, 1, 0]⟩, ⟨125, 1000, [0, 1, 1, 2]⟩, ⟨125, 1000, [1, 0, 0, 0]⟩, ⟨-125, 1000, [1, 0, 0, 2]⟩, ⟨-125, 1000, [1, 0, 1, 0]⟩, ⟨125, 1000, [1, 0, 1, 2]⟩, ⟨125, 1000, [1, 1, 0, 0]⟩, ⟨-125, 1000, [1, 1, 0, 2]⟩, ⟨-125, 1000, [1, 1, 1, 0]⟩, ⟨125, 1000, [1, 1, 1, 2]⟩],
  [⟨125, 1000, [0, 0, 0, 0]⟩, ⟨-125, 1000, [0, 0, 0, 2]⟩, ⟨125, 1000, [0, 0, 1, 0]⟩, ⟨-125, 1000, [0, 0, 1, 2]⟩, ⟨-125, 1000, [0, 1, 0, 0]⟩, ⟨125, 1000, [0, 1, 0, 2]⟩, ⟨-125, 1000, [0, 1, 1, 0]⟩, ⟨125, 1000, [0, 1, 1, 2]⟩, ⟨-125, 1000, [1, 0, 0, 0]⟩, ⟨125, 1000, [1, 0, 0, 2]⟩, ⟨-125, 1000, [1, 0, 1, 0]⟩, ⟨125, 1000, [1, 0, 1, 2]⟩, ⟨125, 1000, [1, 1, 0, 0]⟩, ⟨-125, 1000, [1, 1, 0, 2]⟩, ⟨125, 1000, [1, 1, 1, 0]⟩, ⟨-125, 1000, [1, 1, 1, 2]⟩],
  [⟨125, 1000, [0, 0, 0, 0]⟩, ⟨-125, 1000, [0, 0, 0, 2]⟩, ⟨125, 1000, [0, 0, 1, 0]⟩, ⟨-125, 1000, [0, 0, 1, 2]⟩, ⟨-125, 1000, [0, 1, 0, 0]⟩, ⟨125, 1000, [0, 1, 0, 2]⟩, ⟨-125, 1000, [0, 1, 1, 0]⟩, ⟨125, 1000, [0, 1, 1, 2]⟩, ⟨125, 1000, [1, 0, 0, 0]⟩, ⟨-125, 1000, [1, 0, 0, 2]⟩, ⟨125, 1000, [1, 0, 1, 0]⟩, ⟨-125, 1000, [1, 0, 1, 2]⟩, ⟨-125, 1000, [1, 1, 0, 0]⟩, ⟨125, 1000, [1, 1, 0, 2]⟩, ⟨-125, 1000, [1, 1, 1, 0]⟩, ⟨125, 1000, [1, 1, 1, 2]⟩],
  [⟨125, 1000, [0, 0, 0, 0]⟩, ⟨-125, 1000, [0, 0, 0, 2]⟩, ⟨125, 1000, [0, 0, 1, 0]⟩, ⟨-125, 1000, [0, 0, 1, 2]⟩, ⟨125, 1000, [0, 1, 0, 0]⟩, ⟨-125, 1000, [0, 1, 0, 2]⟩, ⟨125, 1000, [0, 1, 1, 0]⟩, ⟨-125, 1000, [0, 1, 1, 2]⟩, ⟨-125, 1000, [1, 0, 0, 0]⟩, ⟨125, 1000, [1, 0, 0, 2]⟩, ⟨-125, 1000, [1, 0, 1, 0]⟩, ⟨125, 1000, [1, 0, 1, 2]⟩, ⟨-125, 1000, [1, 1, 0, 0]⟩, ⟨125, 1000, [1, 1, 0, 2]⟩, ⟨-125, 1000, [1, 1, 1, 0]⟩, ⟨125, 1000, [1, 1, 1, 2]⟩],
  [⟨125, 1000, [0, 0, 0, 0]⟩, ⟨-125, 1000, [0, 0, 0, 2]⟩, ⟨125, 1000, [0, 0, 1, 0]⟩, ⟨-125, 1000, [0, 0, 1, 2]⟩, ⟨125, 1000, [0, 1, 0, 0]⟩, ⟨-125, 1000, [0, 1, 0, 2]⟩, ⟨125, 1000, [0, 1, 1, 0]⟩, ⟨-125, 1000, [0, 1, 1, 2]⟩, ⟨125, 1000, [1, 0, 0, 0]⟩, ⟨-125, 1000, [1, 0, 0, 2]⟩, ⟨125, 1000, [1, 0, 1, 0]⟩, ⟨-125, 1000, [1, 0, 1, 2]⟩, ⟨125, 1000, [1, 1, 0, 0]⟩, ⟨-125, 1000, [1, 1, 0, 2]⟩, ⟨125, 1000, [1, 1, 1, 0]⟩, ⟨-125, 1000, [1, 1, 1, 2]⟩],
  [⟨-1875, 10000, [0, 0, 0, 0]⟩, ⟨-125, 1000, [0, 0, 0, 1]⟩, ⟨625, 10000, [0, 0, 0, 2]⟩, ⟨125, 1000, [0, 0, 1, 0]⟩, ⟨625, 10000, [0, 0, 1, 1]⟩, ⟨-625, 10000, [0, 0, 1, 2]⟩, ⟨625, 10000, [0, 0, 2, 0]⟩, ⟨625, 10000, [0, 0, 2, 1]⟩, ⟨125, 1000, [0, 1, 0, 0]⟩, ⟨625, 10000, [0, 1, 0, 1]⟩, ⟨-625, 10000, [0, 1, 0, 2]⟩, ⟨-625, 10000, [0, 1, 1, 0]⟩, ⟨625, 10000, [0, 1, 1, 2]⟩, ⟨-625, 10000, [0, 1, 2, 0]⟩, ⟨-625, 10000, [0, 1, 2, 1]⟩, ⟨625, 10000, [0, 2, 0, 0]⟩, ⟨625, 10000, [0, 2, 0, 1]⟩, ⟨-625, 10000, [0, 2, 1, 0]⟩, ⟨-625, 10000, [0, 2, 1, 1]⟩, ⟨125, 1000, [1, 0, 0, 0]⟩, ⟨625, 10000, [1, 0, 0, 1]⟩, ⟨-625, 10000, [1, 0, 0, 2]⟩, ⟨-625, 10000, [1, 0, 1, 0]⟩, ⟨625, 10000, [1, 0, 1, 2]⟩, ⟨-625, 10000, [1, 0, 2, 0]⟩, ⟨-625, 10000, [1, 0, 2, 1]⟩, ⟨-625, 10000, [1, 1, 0, 0]⟩, ⟨625, 10000, [1, 1, 0, 2]⟩, ⟨-625, 10000, [1, 1, 1, 1]⟩, ⟨-625, 10000, [1, 1, 1, 2]⟩, ⟨625, 10000, [1, 1, 2, 0]⟩, ⟨625, 10000, [1, 1, 2, 1]⟩, ⟨-625, 10000, [1, 2, 0, 0]⟩, ⟨-625, 10000, [1, 2, 0, 1]⟩, ⟨625, 10000, [1, 2, 1, 0]⟩, ⟨625, 10000, [1, 2, 1, 1]⟩, ⟨625, 10000, [2, 0, 0, 0]⟩, ⟨625, 10000, [2, 0, 0, 1]⟩, ⟨-625, 10000, [2, 0, 1, 0]⟩, ⟨-625, 10000, [2, 0, 1, 1]⟩, ⟨-625, 10000, [2, 1, 0, 0]⟩, ⟨-625, 10000, [2, 1, 0, 1]⟩, ⟨625, 10000, [2, 1, 1, 0]⟩, ⟨625, 10000, [2, 1, 1, 1]⟩],
  [⟨125, 1000, [0, 0, 0, 0]⟩, ⟨125, 1000, [0, 0, 0, 1]⟩, ⟨-125, 1000, [0, 0, 1, 0]⟩, ⟨-125, 1000, [0, 0, 1, 1]⟩, ⟨-125, 1000, [0, 1, 0, 0]⟩, ⟨-125, 1000, [0, 1, 0, 1]⟩, ⟨125, 1000, [0, 1, 1, 0]⟩, ⟨125, 1000, [0, 1, 1, 1]⟩, ⟨-125, 1000, [2, 0, 0, 0]⟩, ⟨-125, 1000, [2, 0, 0, 1]⟩, ⟨125, 1000, [2, 0, 1, 0]⟩, ⟨125, 1000, [2, 0, 1, 1]⟩, ⟨125, 1000, [2, 1, 0, 0]⟩, ⟨125, 1000, [2, 1, 0, 1]⟩, ⟨-125, 1000, [2, 1, 1, 0]⟩, ⟨-125, 1000, [2, 1, 1, 1]⟩],
  [⟨-1875, 10000, [0, 0, 0, 0]⟩, ⟨-125, 1000, [0, 0, 0, 1]⟩, ⟨625, 10000, [0, 0, 0, 2]⟩, ⟨125, 1000, [0, 0, 1, 0]⟩, ⟨625, 10000, [0, 0, 1, 1]⟩, ⟨-625, 10000, [0, 0, 1, 2]⟩, ⟨625, 10000, [0, 0, 2, 0]⟩, ⟨625, 10000, [0, 0, 2, 1]⟩, ⟨125, 1000, [0, 1, 0, 0]⟩, ⟨625, 10000, [0, 1, 0, 1]⟩, ⟨-625, 10000, [0, 1, 0, 2]⟩, ⟨-625, 10000, [0, 1, 1, 0]⟩, ⟨625, 10000, [0, 1, 1, 2]⟩, ⟨-625, 10000, [0, 1, 2, 0]⟩, ⟨-625, 10000, [0, 1, 2, 1]⟩, ⟨625, 10000, [0, 2, 0, 0]⟩, ⟨625, 10000, [0, 2, 0, 1]⟩, ⟨-625, 10000, [0, 2, 1, 0]⟩, ⟨-625, 10000, [0, 2, 1, 1]⟩, ⟨-125, 1000, [1, 0, 0, 0]⟩, ⟨-625, 10000, [1, 0, 0, 1]⟩, ⟨625, 10000, [1, 0, 0, 2]⟩, ⟨625, 10000, [1, 0, 1, 0]⟩, ⟨-625, 10000, [1, 0, 1, 2]⟩, ⟨625, 10000, [1, 0, 2, 0]⟩, ⟨625, 10000, [1, 0, 2, 1]⟩, ⟨625, 10000, [1, 1, 0, 0]⟩, ⟨-625, 10000, [1, 1, 0, 2]⟩, ⟨625, 10000, [1, 1, 1, 1]⟩, ⟨625, 10000, [1, 1, 1, 2]⟩, ⟨-625, 10000, [1, 1, 2, 0]⟩, ⟨-625, 10000, [1, 1, 2, 1]⟩, ⟨625, 10000, [1, 2, 0, 0]⟩, ⟨625, 10000, [1, 2, 0, 1]⟩, ⟨-625, 10000, [1, 2, 1, 0]⟩, ⟨-625, 10000, [1, 2, 1, 1]⟩, ⟨625, 10000, [2, 0, 0, 0]⟩, ⟨625, 10000, [2, 0, 0, 1]⟩, ⟨-625, 10000, [2, 0, 1, 0]⟩, ⟨-625, 10000, [2, 0, 1, 1]⟩, ⟨-625, 10000, [2, 1, 0, 0]⟩, ⟨-625, 10000, [2, 1, 0, 1]⟩, ⟨625, 10000, [2, 1, 1, 0]⟩, ⟨625, 10000, [2, 1, 1, 1]⟩],
  [⟨125, 1000, [0, 0, 0, 0]⟩, ⟨125, 1000, [0, 0, 0, 1]⟩, ⟨-125, 1000, [0, 0, 1, 0]⟩, ⟨-125, 1000, [0, 0, 1, 1]⟩, ⟨-125, 1000, [0, 2, 0, 0]⟩, ⟨-125, 1000, [0, 2, 0, 1]⟩, ⟨125, 1000, [0, 2, 1, 0]⟩, ⟨125, 1000, [0, 2, 1, 1]⟩, ⟨-125, 1000, [1, 0, 0, 0]⟩, ⟨-125, 1000, [1, 0, 0, 1]⟩, ⟨125, 1000, [1, 0, 1, 0]⟩, ⟨125, 1000, [1, 0, 1, 1]⟩, ⟨125, 1000, [1, 2, 0, 0]⟩, ⟨125, 1000, [1, 2, 0, 1]⟩, ⟨-125, 1000, [1, 2, 1, 0]⟩, ⟨-125, 1000, [1, 2, 1, 1]⟩],
  [⟨125, 1000, [0, 0, 0, 0]⟩, ⟨125, 1000, [0, 0, 0, 1]⟩, ⟨-125, 1000, [0, 0, 1, 0]⟩, ⟨-125, 1000, [0, 0, 1, 1]⟩, ⟨-125, 1000, [0, 2, 0, 0]⟩, ⟨-125, 1000, [0, 2, 0, 1]⟩, ⟨125, 1000, [0, 2, 1, 0]⟩, ⟨125, 1000, [0, 2, 1, 1]⟩, ⟨125, 1000, [1, 0, 0, 0]⟩, ⟨125, 1000, [1, 0, 0, 1]⟩, ⟨-125, 1000, [1, 0, 1, 0]⟩, ⟨-125, 1000, [1, 0, 1, 1]⟩, ⟨-125, 1000, [1, 2, 0, 0]⟩, ⟨-125, 1000, [1, 2, 0, 1]⟩, ⟨125, 1000, [1, 2, 1, 0]⟩, ⟨125, 1000, [1, 2, 1, 1]⟩],
  [⟨-1875, 10000, [0, 0, 0, 0]⟩, ⟨-125, 1000, [0, 0, 0, 1]⟩, ⟨625, 10000, [0, 0, 0, 2]⟩, ⟨125, 1000, [0, 0, 1, 0]⟩, ⟨625, 10000, [0, 0, 1, 1]⟩, ⟨-625, 10000, [0, 0, 1, 2]⟩, ⟨625, 10000, [0, 0, 2, 0]⟩, ⟨625, 10000, [0, 0, 2, 1]⟩, ⟨-125, 1000, [0, 1, 0, 0]⟩, ⟨-625, 10000, [0, 1, 0, 1]⟩, ⟨625, 10000, [0, 1, 0, 2]⟩, ⟨625, 10000, [0, 1, 1, 0]⟩, ⟨-625, 10000, [0, 1, 1, 2]⟩, ⟨625, 10000, [0, 1, 2, 0]⟩, ⟨625, 10000, [0, 1, 2, 1]⟩, ⟨625, 10000, [0, 2, 0, 0]⟩, ⟨625, 10000, [0, 2, 0, 1]⟩, ⟨-625, 10000, [0, 2, 1, 0]⟩, ⟨-625, 10000, [0, 2, 1, 1]⟩, ⟨125, 1000, [1, 0, 0, 0]⟩, ⟨625, 10000, [1, 0, 0, 1]⟩, ⟨-625, 10000, [1, 0, 0, 2]⟩, ⟨-625, 10000, [1, 0, 1, 0]⟩, ⟨625, 10000, [1, 0, 1, 2]⟩, ⟨-625, 10000, [1, 0, 2, 0]⟩, ⟨-625, 10000, [1, 0, 2, 1]⟩, ⟨625, 10000, [1, 1, 0, 0]⟩, ⟨-625, 10000, [1, 1, 0, 2]⟩, ⟨625, 10000, [1, 1, 1, 1]⟩, ⟨625, 10000, [1, 1, 1, 2]⟩, ⟨-625, 10000, [1, 1, 2, 0]⟩, ⟨-625, 10000, [1, 1, 2, 1]⟩, ⟨-625, 10000, [1, 2, 0, 0]⟩, ⟨-625, 10000, [1, 2, 0, 1]⟩, ⟨625, 10000, [1, 2, 1, 0]⟩, ⟨625, 10000, [1, 2, 1, 1]⟩, ⟨625, 10000, [2, 0, 0, 0]⟩, ⟨625, 10000, [2, 0, 0, 1]⟩, ⟨-625, 10000, [2, 0, 1, 0]⟩, ⟨-625, 10000, [2, 0, 1, 1]⟩, ⟨625, 10000, [2, 1, 0, 0]⟩, ⟨625, 10000, [2, 1, 0, 1]⟩, ⟨-625, 10000, [2, 1, 1, 0]⟩, ⟨-625, 10000, [2, 1, 1, 1]⟩],
  [⟨125, 1000, [0, 0, 0, 0]⟩, ⟨125, 1000, [0, 0, 0, 1]⟩, ⟨-125, 1000, [0, 0, 1, 0]⟩, ⟨-125, 1000, [0, 0, 1, 1]⟩, ⟨125, 1000, [0, 1, 0, 0]⟩, ⟨125, 1000, [0, 1, 0, 1]⟩, ⟨-125, 1000, [0, 1, 1, 0]⟩, ⟨-125, 1000, [0, 1, 1, 1]⟩, ⟨-125, 1000, [2, 0, 0, 0]⟩, ⟨-125, 1000, [2, 0, 0, 1]⟩, ⟨125, 1000, [2, 0, 1, 0]⟩, ⟨125, 1000, [2, 0, 1, 1]⟩, ⟨-125, 1000, [2, 1, 0, 0]⟩, ⟨-125, 1000, [2, 1, 0, 1]⟩, ⟨125, 1000, [2, 1, 1, 0]⟩, ⟨125, 1000, [2, 1, 1, 1]⟩],
  [⟨-1875, 10000, [0, 0, 0, 0]⟩, ⟨-125, 1000, [0, 0, 0, 1]⟩, ⟨625, 10000, [0, 0, 0, 2]⟩, ⟨125, 1000, [0, 0, 1, 0]⟩, ⟨625, 10000, [0, 0, 1, 1]⟩, ⟨-625, 10000, [0, 0, 1, 2]⟩, ⟨625, 10000, [0, 0, 2, 0]⟩, ⟨625, 10000, [0, 0, 2, 1]⟩, ⟨-125, 1000, [0, 1, 0, 0]⟩, ⟨-625, 10000, [0, 1, 0, 1]⟩, ⟨625, 10000, [0, 1, 0, 2]⟩, ⟨625, 10000, [0, 1, 1, 0]⟩, ⟨-625, 10000, [0, 1, 1, 2]⟩, ⟨625, 10000, [0, 1, 2, 0]⟩, ⟨625, 10000, [0, 1, 2, 1]⟩, ⟨625, 10000, [0, 2, 0, 0]⟩, ⟨625, 10000, [0, 2, 0, 1]⟩, ⟨-625, 10000, [0, 2, 1, 0]⟩, ⟨-625, 10000, [0, 2, 1, 1]⟩, ⟨-125, 1000, [1, 0, 0, 0]⟩, ⟨-625, 10000, [1, 0, 0, 1]⟩, ⟨625, 10000, [1, 0, 0, 2]⟩, ⟨625, 10000, [1, 0, 1, 0]⟩, ⟨-625, 10000, [1, 0, 1, 2]⟩, ⟨625, 10000, [1, 0, 2, 0]⟩, ⟨625, 10000, [1, 0, 2, 1]⟩, ⟨-625, 10000, [1, 1, 0, 0]⟩, ⟨625, 10000, [1, 1, 0, 2]⟩, ⟨-625, 10000, [1, 1, 1, 1]⟩, ⟨-625, 10000, [1, 1, 1, 2]⟩, ⟨625, 10000, [1, 1, 2, 0]⟩, ⟨625, 10000, [1, 1, 2, 1]⟩, ⟨625, 10000, [1, 2, 0, 0]⟩, ⟨625, 10000, [1, 2, 0, 1]⟩, ⟨-625, 10000, [1, 2, 1, 0]⟩, ⟨-625, 10000, [1, 2, 1, 1]⟩, ⟨625, 10000, [2, 0, 0, 0]⟩, ⟨625, 10000, [2, 0, 0, 1]⟩, ⟨-625, 10000, [2, 0, 1, 0]⟩, ⟨-625, 10000, [2, 0, 1, 1]⟩, ⟨625, 10000, [2, 1, 0, 0]⟩, ⟨625, 10000, [2, 1, 0, 1]⟩, ⟨-625, 10000, [2, 1, 1, 0]⟩, ⟨-625, 10000, [2, 1, 1, 1]⟩],
  [⟨125, 1000, [0, 0, 0, 0]⟩, ⟨125, 1000, [0, 0, 0, 1]⟩, ⟨-125, 1000, [0, 0, 2, 0]⟩, ⟨-125, 1000, [0, 0, 2, 1]⟩, ⟨-125, 1000, [0, 1, 0, 0]⟩, ⟨-125, 1000, [0, 1, 0, 1]⟩, ⟨125, 1000, [0, 1, 2, 0]⟩, ⟨125, 1000, [0, 1, 2, 1]⟩, ⟨-125, 1000, [1, 0, 0, 0]⟩, ⟨-125, 1000, [1, 0, 0, 1]⟩, ⟨125, 1000, [1, 0, 2, 0]⟩, ⟨125, 1000, [1, 0, 2, 1]⟩, ⟨125, 1000, [1, 1, 0, 0]⟩, ⟨125, 1000, [1, 1, 0, 1]⟩, ⟨-125, 1000, [1, 1, 2, 0]⟩, ⟨-125, 1000, [1, 1, 2, 1]⟩],
  [⟨125, 1000, [0, 0, 0, 0]⟩, ⟨125, 1000, [0, 0, 0, 1]⟩, ⟨-125, 1000, [0, 0, 2, 0]⟩, ⟨-125, 1000, [0, 0, 2, 1]⟩, ⟨-125, 1000, [0, 1, 0, 0]⟩, ⟨-125, 1000, [0, 1, 0, 1]⟩, ⟨125, 1000, [0, 1, 2, 0]⟩, ⟨125, 1000, [0, 1, 2, 1]⟩, ⟨125, 1000, [1, 0, 0, 0]⟩, ⟨125, 1000, [1, 0, 0, 1]⟩, ⟨-125, 1000, [1, 0, 2, 0]⟩, ⟨-125, 1000, [1, 0, 2, 1]⟩, ⟨-125, 1000, [1, 1, 0, 0]⟩, ⟨-125, 1000, [1, 1, 0, 1]⟩, ⟨125, 1000, [1, 1, 2, 0]⟩, ⟨125, 1000, [1, 1, 2, 1]⟩],
  [⟨125, 1000, [0, 0, 0, 0]⟩, ⟨125, 1000, [0, 0, 0, 1]⟩, ⟨-125, 1000, [0, 0, 2, 0]⟩, ⟨-125, 1000, [0, 0, 2, 1]⟩, ⟨125, 1000, [0, 1, 0, 0]⟩, ⟨125, 1000, [0, 1, 0, 1]⟩, ⟨-125, 1000, [0, 1, 2, 0]⟩, ⟨-125, 1000, [0, 1, 2, 1]⟩, ⟨-125, 1000, [1, 0, 0, 0]⟩, ⟨-125, 1000, [1, 0, 0, 1]⟩, ⟨125, 1000, [1, 0, 2, 0]⟩, ⟨125, 1000, [1, 0, 2, 1]⟩, ⟨-125, 1000, [1, 1, 0, 0]⟩, ⟨-125, 1000, [1, 1, 0, 1]⟩, ⟨125, 1000, [1, 1, 2, 0]⟩, ⟨125, 1000, [1, 1, 2, 1]⟩],
  [⟨125, 1000, [0, 0, 0, 0]⟩, ⟨125, 1000, [0, 0, 0, 1]⟩, ⟨-125, 1000, [0, 0, 2, 0]⟩, ⟨-125, 1000, [0, 0, 2, 1]⟩, ⟨125, 1000, [0, 1, 0, 0]⟩, ⟨125, 1000, [0, 1, 0, 1]⟩, ⟨-125, 1000, [0, 1, 2, 0]⟩, ⟨-125, 1000, [0, 1, 2, 1]⟩, ⟨125, 1000, [1, 0, 0, 0]⟩, ⟨125, 1000, [1, 0, 0, 1]⟩, ⟨-125, 1000, [1, 0, 2, 0]⟩, ⟨-125, 1000, [1, 0, 2, 1]⟩, ⟨125, 1000, [1, 1, 0, 0]⟩, ⟨125, 1000, [1, 1, 0, 1]⟩, ⟨-125, 1000, [1, 1, 2, 0]⟩, ⟨-125, 1000, [1, 1, 2, 1]⟩],
  [⟨-1875, 10000, [0, 0, 0, 0]⟩, ⟨-125, 1000, [0, 0, 0, 1]⟩, ⟨625, 10000, [0, 0, 0, 2]⟩, ⟨-125, 1000, [0, 0, 1, 0]⟩, ⟨-625, 10000, [0, 0, 1, 1]⟩, ⟨625, 10000, [0, 0, 1, 2]⟩, ⟨625, 10000, [0, 0, 2, 0]⟩, ⟨625, 10000, [0, 0, 2, 1]⟩, ⟨125, 1000, [0, 1, 0, 0]⟩, ⟨625, 10000, [0, 1, 0, 1]⟩, ⟨-625, 10000, [0, 1, 0, 2]⟩, ⟨625, 10000, [0, 1, 1, 0]⟩, ⟨-625, 10000, [0, 1, 1, 2]⟩, ⟨-625, 10000, [0, 1, 2, 0]⟩, ⟨-625, 10000, [0, 1, 2, 1]⟩, ⟨625, 10000, [0, 2, 0, 0]⟩, ⟨625, 10000, [0, 2, 0, 1]⟩, ⟨625, 10000, [0, 2, 1, 0]⟩, ⟨625, 10000, [0, 2, 1, 1]⟩, ⟨125, 1000, [1, 0, 0, 0]⟩, ⟨625, 10000, [1, 0, 0, 1]⟩, ⟨-625, 10000, [1, 0, 0, 2]⟩, ⟨625, 10000, [1, 0, 1, 0]⟩, ⟨-625, 10000, [1, 0, 1, 2]⟩, ⟨-625, 10000, [1, 0, 2, 0]⟩, ⟨-625, 10000, [1, 0, 2, 1]⟩, ⟨-625, 10000, [1, 1, 0, 0]⟩, ⟨625, 10000, [1, 1, 0, 2]⟩, ⟨625, 10000, [1, 1, 1, 1]⟩, ⟨625, 10000, [1, 1, 1, 2]⟩, ⟨625, 10000, [1, 1, 2, 0]⟩, ⟨625, 10000, [1, 1, 2, 1]⟩, ⟨-625, 10000, [1, 2, 0, 0]⟩, ⟨-625, 10000, [1, 2, 0, 1]⟩, ⟨-625, 10000, [1, 2, 1, 0]⟩, ⟨-625, 10000, [1, 2, 1, 1]⟩, ⟨625, 10000, [2, 0, 0, 0]⟩, ⟨625, 10000, [2, 0, 0, 1]⟩, ⟨625, 10000, [2, 0, 1, 0]⟩, ⟨625, 10000, [2, 0, 1, 1]⟩, ⟨-625, 10000, [2, 1, 0, 0]⟩, ⟨-625, 10000, [2, 1, 0, 1]⟩, ⟨-625, 10000, [2, 1, 1, 0]⟩, ⟨-625, 10000, [2, 1, 1, 1]⟩],
  [⟨125, 1000, [0, 0, 0, 0]⟩, ⟨125, 1000, [0, 0, 0, 1]⟩, ⟨125, 1000, [0, 0, 1, 0]⟩, ⟨125, 1000, [0, 0, 1, 1]⟩, ⟨-125, 1000, [0, 1, 0, 0]⟩, ⟨-125, 1000, [0, 1, 0, 1]⟩, ⟨-125, 1000, [0, 1, 1, 0]⟩, ⟨-125, 1000, [0, 1, 1, 1]⟩, ⟨-125, 1000, [2, 0, 0, 0]⟩, ⟨-125, 1000, [2, 0, 0, 1]⟩, ⟨-125, 1000, [2, 0, 1, 0]⟩, ⟨-125, 1000, [2, 0, 1, 1]⟩, ⟨125, 1000, [2, 1, 0, 0]⟩, ⟨125, 1000, [2, 1, 0, 1]⟩, ⟨125, 1000, [2, 1, 1, 0]⟩, ⟨125, 1000, [2, 1, 1, 1]⟩],
  [⟨-1875, 10000, [0, 0, 0, 0]⟩, ⟨-125, 1000, [0, 0, 0, 1]⟩, ⟨625, 10000, [0, 0, 0, 2]⟩, ⟨-125, 1000, [0, 0, 1, 0]⟩, ⟨-625, 10000, [0, 0, 1, 1]⟩, ⟨625, 10000, [0, 0, 1, 2]⟩, ⟨625, 10000, [0, 0, 2, 0]⟩, ⟨625, 10000, [0, 0, 2, 1]⟩, ⟨125, 1000, [0, 1, 0, 0]⟩, ⟨625, 10000, [0, 1, 0, 1]⟩, ⟨-625, 10000, [0, 1, 0, 2]⟩, ⟨625, 10000, [0, 1, 1, 0]⟩, ⟨-625, 10000, [0, 1, 1, 2]⟩, ⟨-625, 10000, [0, 1, 2, 0]⟩, ⟨-625, 10000, [0, 1, 2, 1]⟩, ⟨625, 10000, [0, 2, 0, 0]⟩, ⟨625, 10000, [0, 2, 0, 1]⟩, ⟨625, 10000, [0, 2, 1, 0]⟩, ⟨625, 10000, [0, 2, 1, 1]⟩, ⟨-125, 1000, [1, 0, 0, 0]⟩, ⟨-625, 10000, [1, 0, 0, 1]⟩, ⟨625, 10000, [1, 0, 0, 2]⟩, ⟨-625, 10000, [1, 0, 1, 0]⟩, ⟨625, 10000, [1, 0, 1, 2]⟩, ⟨625, 10000, [1, 0, 2, 0]⟩, ⟨625, 10000, [1, 0, 2, 1]⟩, ⟨625, 10000, [1, 1, 0, 0]⟩, ⟨-625, 10000, [1, 1, 0, 2]⟩, ⟨-625, 10000, [1, 1, 1, 1]⟩, ⟨-625, 10000, [1, 1, 1, 2]⟩, ⟨-625, 10000, [1, 1, 2, 0]⟩, ⟨-625, 10000, [1, 1, 2, 1]⟩, ⟨625, 10000, [1, 2, 0, 0]⟩, ⟨625, 10000, [1, 2, 0, 1]⟩, ⟨625, 10000, [1, 2, 1, 0]⟩, ⟨625, 10000, [1, 2, 1, 1]⟩, ⟨625, 10000, [2, 0, 0, 0]⟩, ⟨625, 10000, [2, 0, 0, 1]⟩, ⟨625, 10000, [2, 0, 1, 0]⟩, ⟨625, 10000, [2, 0, 1, 1]⟩, ⟨-625, 10000, [2, 1, 0, 0]⟩, ⟨-625, 10000, [2, 1, 0, 1]⟩, ⟨-625, 10000, [2, 1, 1, 0]⟩, ⟨-625, 10000, [2, 1, 1, 1]⟩],
  [⟨125, 1000, [0, 0, 0, 0]⟩, ⟨125, 1000, [0, 0, 0, 1]⟩, ⟨125, 1000, [0, 0, 1, 0]⟩, ⟨125, 1000, [0, 0, 1, 1]⟩, ⟨-125, 1000, [0, 2, 0, 0]⟩, ⟨-125, 1000, [0, 2, 0, 1]⟩, ⟨-125, 1000, [0, 2, 1, 0]⟩, ⟨-125, 1000, [0, 2, 1, 1]⟩, ⟨-125, 1000, [1, 0, 0, 0]⟩, ⟨-125, 1000, [1, 0, 0, 1]⟩, ⟨-125, 1000, [1, 0, 1, 0]⟩, ⟨-125, 1000, [1, 0, 1, 1]⟩, ⟨125, 1000, [1, 2, 0, 0]⟩, ⟨125, 1000, [1, 2, 0, 1]⟩, ⟨125, 1000, [1, 2, 1, 0]⟩, ⟨125, 1000, [1, 2, 1, 1]⟩],
  [⟨125, 1000, [0, 0, 0, 0]⟩, ⟨125, 1000, [0, 0, 0, 1]⟩, ⟨125, 1000, [0, 0, 1, 0]⟩, ⟨125, 1000, [0, 0, 1, 1]⟩, ⟨-125, 1000, [0, 2, 0, 0]⟩, ⟨-125, 1000, [0, 2, 0, 1]⟩, ⟨-125, 1000, [0, 2, 1, 0]⟩, ⟨-125, 1000, [0, 2, 1, 1]⟩, ⟨125, 1000, [1, 0, 0, 0]⟩, ⟨125, 1000, [1, 0, 0, 1]⟩, ⟨125, 1000, [1, 0, 1, 0]⟩, ⟨125, 1000, [1, 0, 1, 1]⟩, ⟨-125, 1000, [1, 2, 0, 0]⟩, ⟨-125, 1000, [1, 2, 0, 1]⟩, ⟨-125, 1000, [1, 2, 1, 0]⟩, ⟨-125, 1000, [1, 2, 1, 1]⟩],
  [⟨-1875, 10000, [0, 0, 0, 0]⟩, ⟨-125, 1000, [0, 0, 0, 1]⟩, ⟨625, 10000, [0, 0, 0, 2]⟩, ⟨-125, 1000, [0, 0, 1, 0]⟩, ⟨-625, 10000, [0, 0, 1, 1]⟩, ⟨625, 10000, [0, 0, 1, 2]⟩, ⟨625, 10000, [0, 0, 2, 0]⟩, ⟨625, 10000, [0, 0, 2, 1]⟩, ⟨-125, 1000, [0, 1, 0, 0]⟩, ⟨-625, 10000, [0, 1, 0, 1]⟩, ⟨625, 10000, [0, 1, 0, 2]⟩, ⟨-625, 10000, [0, 1, 1, 0]⟩, ⟨625, 10000, [0, 1, 1, 2]⟩, ⟨625, 10000, [0, 1, 2, 0]⟩, ⟨625, 10000, [0, 1, 2, 1]⟩, ⟨625, 10000, [0, 2, 0, 0]⟩, ⟨625, 10000, [0, 2, 0, 1]⟩, ⟨625, 10000, [0, 2, 1, 0]⟩, ⟨625, 10000, [0, 2, 1, 1]⟩, ⟨125, 1000, [1, 0, 0, 0]⟩, ⟨625, 10000, [1, 0, 0, 1]⟩, ⟨-625, 10000, [1, 0, 0, 2]⟩, ⟨625, 10000, [1, 0, 1, 0]⟩, ⟨-625, 10000, [1, 0, 1, 2]⟩, ⟨-625, 10000, [1, 0, 2, 0]⟩, ⟨-625, 10000, [1, 0, 2, 1]⟩, ⟨625, 10000, [1, 1, 0, 0]⟩, ⟨-625, 10000, [1, 1, 0, 2]⟩, ⟨-625, 10000, [1, 1, 1, 1]⟩, ⟨-625, 10000, [1, 1, 1, 2]⟩, ⟨-625, 10000, [1, 1, 2, 0]⟩, ⟨-625, 10000, [1, 1, 2, 1]⟩, ⟨-625, 10000, [1, 2, 0, 0]⟩, ⟨-625, 10000, [1, 2, 0, 1]⟩, ⟨-625, 10000, [1, 2, 1, 0]⟩, ⟨-625, 10000, [1, 2, 1, 1]⟩, ⟨625, 10000, [2, 0, 0, 0]⟩, ⟨625, 10000, [2, 0, 0, 1]⟩, ⟨625, 10000, [2, 0, 1, 0]⟩, ⟨625, 10000, [2, 0, 1, 1]⟩, ⟨625, 10000, [2, 1, 0, 0]⟩, ⟨625, 10000, [2, 1, 0, 1]⟩, ⟨625, 10000, [2, 1, 1, 0]⟩, ⟨625, 10000, [2, 1, 1, 1]⟩],
  [⟨125, 1000, [0, 0, 0, 0]⟩, ⟨125, 1000, [0, 0, 0, 1]⟩, ⟨125, 1000, [0, 0, 1, 0]⟩, ⟨125, 1000, [0, 0, 1, 1]⟩, ⟨125, 1000, [0, 1, 0, 0]⟩, ⟨125, 1000, [0, 1, 0, 1]⟩, ⟨125, 1000, [0, 1, 1, 0]⟩, ⟨125, 1000, [0, 1, 1, 1]⟩, ⟨-125, 1000, [2, 0, 0, 0]⟩, ⟨-125, 1000, [2, 0, 0, 1]⟩, ⟨-125, 1000, [2, 0, 1, 0]⟩, ⟨-125, 1000, [2, 0, 1, 1]⟩, ⟨-125, 1000, [2, 1, 0, 0]⟩, ⟨-125, 1000, [2, 1, 0, 1]⟩, ⟨-125, 1000, [2, 1, 1, 0]⟩, ⟨-125, 1000, [2, 1, 1, 1]⟩],
  [⟨-1875, 10000, [0, 0, 0, 0]⟩, ⟨-125, 1000, [0, 0, 0, 1]⟩, ⟨625, 10000, [0, 0, 0, 2]⟩, ⟨-125, 1000, [0, 0, 1, 0]⟩, ⟨-625, 10000, [0, 0, 1, 1]⟩, ⟨625, 10000, [0, 0, 1, 2]⟩, ⟨625, 10000, [0, 0, 2, 0]⟩, ⟨625, 10000, [0, 0, 2, 1]⟩, ⟨-125, 1000, [0, 1, 0, 0]⟩, ⟨-625, 10000, [0, 1, 0, 1]⟩, ⟨625, 10000, [0, 1, 0, 2]⟩, ⟨-625, 10000, [0, 1, 1, 0]⟩, ⟨625, 10000, [0, 1, 1, 2]⟩, ⟨625, 10000, [0, 1, 2, 0]⟩, ⟨625, 10000, [0, 1, 2, 1]⟩, ⟨625, 10000, [0, 2, 0, 0]⟩, ⟨625, 10000, [0, 2, 0, 1]⟩, ⟨625, 10000, [0, 2, 1, 0]⟩, ⟨625, 10000, [0, 2, 1, 1]⟩, ⟨-125, 1000, [1, 0, 0, 0]⟩, ⟨-625, 10000, [1, 0, 0, 1]⟩, ⟨625, 10000, [1, 0, 0, 2]⟩, ⟨-625, 10000, [1, 0, 1, 0]⟩, ⟨625, 10000, [1, 0, 1, 2]⟩, ⟨625, 10000, [1, 0, 2, 0]⟩, ⟨625, 10000, [1, 0, 2, 1]⟩, ⟨-625, 10000, [1, 1, 0, 0]⟩, ⟨625, 10000, [1, 1, 0, 2]⟩, ⟨625, 10000, [1, 1, 1, 1]⟩, ⟨625, 10000, [1, 1, 1, 2]⟩, ⟨625, 10000, [1, 1, 2, 0]⟩, ⟨625, 10000, [1, 1, 2, 1]⟩, ⟨625, 10000, [1, 2, 0, 0]⟩, ⟨625, 10000, [1, 2, 0, 1]⟩, ⟨625, 10000, [1, 2, 1, 0]⟩, ⟨625, 10000, [1, 2, 1, 1]⟩, ⟨625, 10000, [2, 0, 0, 0]⟩, ⟨625, 10000, [2, 0, 0, 1]⟩, ⟨625, 10000, [2, 0, 1, 0]⟩, ⟨625, 10000, [2, 0, 1, 1]⟩, ⟨625, 10000, [2, 1, 0, 0]⟩, ⟨625, 10000, [2, 1, 0, 1]⟩, ⟨625, 10000, [2, 1, 1, 0]⟩, ⟨625, 10000, [2, 1, 1, 1]⟩]]

/-- computeDerivativeMatrices.py:4391-4400. -/
def modalMax5p1 : List Poly := [
  [⟨1767766952966367, 10000000000000000, [0, 0, 0, 0, 0]⟩],
  [⟨3061862178478966, 10000000000000000, [1, 0, 0, 0, 0]⟩],
  [⟨3061862178478966, 10000000000000000, [0, 1, 0, 0, 0]⟩],
  [⟨3061862178478966, 10000000000000000, [0, 0, 1, 0, 0]⟩],
  [⟨3061862178478966, 10000000000000000, [0, 0, 0, 1, 0]⟩],
  [⟨3061862178478966, 10000000000000000, [0, 0, 0, 0, 1]⟩]]

/-- computeDerivativeMatrices.py:4454-4478. -/
def modalMax5p2 : List Poly := [
  [⟨1767766952966367, 10000000000000000, [0, 0, 0, 0, 0]⟩],
  [⟨3061862178478966, 10000000000000000, [1, 0, 0, 0, 0]⟩],
  [⟨3061862178478966, 10000000000000000, [0, 1, 0, 0, 0]⟩],
  [⟨3061862178478966, 10000000000000000, [0, 0, 1, 0, 0]⟩],
  [⟨3061862178478966, 10000000000000000, [0, 0, 0, 1, 0]⟩],
  [⟨3061862178478966, 10000000000000000, [0, 0, 0, 0, 1]⟩],
  [⟨5303300858899102, 10000000000000000, [1, 1, 0, 0, 0]⟩],
  [⟨5303300858899102, 10000000000000000, [1, 0, 1, 0, 0]⟩],
  [⟨5303300858899102, 10000000000000000, [0, 1, 1, 0, 0]⟩],
  [⟨5303300858899102, 10000000000000000, [1, 0, 0, 1, 0]⟩],
  [⟨5303300858899102, 10000000000000000, [0, 1, 0, 1, 0]⟩],
  [⟨5303300858899102, 10000000000000000, [0, 0, 1, 1, 0]⟩],
  [⟨5303300858899102, 10000000000000000, [1, 0, 0, 0, 1]⟩],
  [⟨5303300858899102, 10000000000000000, [0, 1, 0, 0, 1]⟩],
  [⟨5303300858899102, 10000000000000000, [0, 0, 1, 0, 1]⟩],
  [⟨5303300858899102, 10000000000000000, [0, 0, 0, 1, 1]⟩],
  [⟨-1976423537605237, 10000000000000000, [0, 0, 0, 0, 0]⟩, ⟨592927061281571, 1000000000000000, [2, 0, 0, 0, 0]⟩],
  [⟨-1976423537605237, 10000000000000000, [0, 0, 0, 0, 0]⟩, ⟨592927061281571, 1000000000000000, [0, 2, 0, 0, 0]⟩],
  [⟨-1976423537605237, 10000000000000000, [0, 0, 0, 0, 0]⟩, ⟨592927061281571, 1000000000000000, [0, 0, 2, 0, 0]⟩],
  [⟨-1976423537605237, 10000000000000000, [0, 0, 0, 0, 0]⟩, ⟨592927061281571, 1000000000000000, [0, 0, 0, 2, 0]⟩],
  [⟨-1976423537605237, 10000000000000000, [0, 0, 0, 0, 0]⟩, ⟨592927061281571, 1000000000000000, [0, 0, 0, 0, 2]⟩]]

/-- computeDerivativeMatrices.py:4532-4591. -/
def modalMax5p3 : List Poly := [
  [⟨1767766952966367, 10000000000000000, [0, 0, 0, 0, 0]⟩],
  [⟨3061862178478966, 10000000000000000, [1, 0, 0, 0, 0]⟩],
  [⟨3061862178478966, 10000000000000000, [0, 1, 0, 0, 0]⟩],
  [⟨3061862178478966, 10000000000000000, [0, 0, 1, 0, 0]⟩],
  [⟨3061862178478966, 10000000000000000, [0, 0, 0, 1, 0]⟩],
  [⟨3061862178478966, 10000000000000000, [0, 0, 0, 0, 1]⟩],
  [⟨5303300858899102, 10000000000000000, [1, 1, 0, 0, 0]⟩],
  [⟨5303300858899102, 10000000000000000, [1, 0, 1, 0, 0]⟩],
  [⟨5303300858899102, 10000000000000000, [0, 1, 1, 0, 0]⟩],
  [⟨5303300858899102, 10000000000000000, [1, 0, 0, 1, 0]⟩],
  [⟨5303300858899102, 10000000000000000, [0, 1, 0, 1, 0]⟩],
  [⟨5303300858899102, 10000000000000000, [0, 0, 1, 1, 0]⟩],
  [⟨5303300858899102, 10000000000000000, [1, 0, 0, 0, 1]⟩],
  [⟨5303300858899102, 10000000000000000, [0, 1, 0, 0, 1]⟩],
  [⟨5303300858899102, 10000000000000000, [0, 0, 1, 0, 1]⟩],
  [⟨5303300858899102, 10000000000000000, [0, 0, 0, 1, 1]⟩],
  [⟨-1976423537605237, 10000000000000000, [0, 0, 0, 0, 0]⟩, ⟨592927061281571, 1000000000000000, [2, 0, 0, 0, 0]⟩],
  [⟨-1976423537605237, 10000000000000000, [0, 0, 0, 0, 0]⟩, ⟨592927061281571, 1000000000000000, [0, 2, 0, 0, 0]⟩],
  [⟨-1976423537605237, 10000000000000000, [0, 0, 0, 0, 0]⟩, ⟨592927061281571, 1000000000000000, [0, 0, 2, 0, 0]⟩],
  [⟨-1976423537605237, 10000000000000000, [0, 0, 0, 0, 0]⟩, ⟨592927061281571, 1000000000000000, [0, 0, 0, 2, 0]⟩],
  [⟨-1976423537605237, 10000000000000000, [0, 0, 0, 0, 0]⟩, ⟨592927061281571, 1000000000000000, [0, 0, 0, 0, 2]⟩],
  [⟨9185586535436896, 10000000000000000, [1, 1, 1, 0, 0]⟩],
  [⟨9185586535436896, 10000000000000000, [1, 1, 0, 1, 0]⟩],
  [⟨9185586535436896, 10000000000000000, [1, 0, 1, 1, 0]⟩],
  [⟨9185586535436896, 10000000000000000, [0, 1, 1, 1, 0]⟩],
  [⟨9185586535436896, 10000000000000000, [1, 1, 0, 0, 1]⟩],
  [⟨9185586535436896, 10000000000000000, [1, 0, 1, 0, 1]⟩],
  [⟨9185586535436896, 10000000000000000, [0, 1, 1, 0, 1]⟩],
  [⟨9185586535436896, 10000000000000000, [1, 0, 0, 1, 1]⟩],
  [⟨9185586535436896, 10000000000000000, [0, 1, 0, 1, 1]⟩],
  [⟨9185586535436896, 10000000000000000, [0, 0, 1, 1, 1]⟩],
  [⟨-3423265984407291, 10000000000000000, [0, 1, 0, 0, 0]⟩, ⟨1026979795322187, 1000000000000000, [2, 1, 0, 0, 0]⟩],
  [⟨-3423265984407291, 10000000000000000, [1, 0, 0, 0, 0]⟩, ⟨1026979795322187, 1000000000000000, [1, 2, 0, 0, 0]⟩],
  [⟨-3423265984407291, 10000000000000000, [0, 0, 1, 0, 0]⟩, ⟨1026979795322187, 1000000000000000, [2, 0, 1, 0, 0]⟩],
  [⟨-3423265984407291, 10000000000000000, [0, 0, 1, 0, 0]⟩, ⟨1026979795322187, 1000000000000000, [0, 2, 1, 0, 0]⟩],
  [⟨-3423265984407291, 10000000000000000, [1, 0, 0, 0, 0]⟩, ⟨1026979795322187, 1000000000000000, [1, 0, 2, 0, 0]⟩],
  [⟨-3423265984407291, 10000000000000000, [0, 1, 0, 0, 0]⟩, ⟨1026979795322187, 1000000000000000, [0, 1, 2, 0, 0]⟩],
  [⟨-3423265984407291, 10000000000000000, [0, 0, 0, 1, 0]⟩, ⟨1026979795322187, 1000000000000000, [2, 0, 0, 1, 0]⟩],
  [⟨-3423265984407291, 10000000000000000, [0, 0, 0, 1, 0]⟩, ⟨1026979795322187, 1000000000000000, [0, 2, 0, 1, 0]⟩],
  [⟨-3423265984407291, 10000000000000000, [0, 0, 0, 1, 0]⟩, ⟨1026979795322187, 1000000000000000, [0, 0, 2, 1, 0]⟩],
  [⟨-3423265984407291, 10000000000000000, [1, 0, 0, 0, 0]⟩, ⟨1026979795322187, 1000000000000000, [1, 0, 0, 2, 0]⟩],
  [⟨-3423265984407291, 10000000000000000, [0, 1, 0, 0, 0]⟩, ⟨1026979795322187, 1000000000000000, [0, 1, 0, 2, 0]⟩],
  [⟨-3423265984407291, 10000000000000000, [0, 0, 1, 0, 0]⟩, ⟨1026979795322187, 1000000000000000, [0, 0, 1, 2, 0]⟩],
  [⟨-3423265984407291, 10000000000000000, [0, 0, 0, 0, 1]⟩, ⟨1026979795322187, 1000000000000000, [2, 0, 0, 0, 1]⟩],
  [⟨-3423265984407291, 10000000000000000, [0, 0, 0, 0, 1]⟩, ⟨1026979795322187, 1000000000000000, [0, 2, 0, 0, 1]⟩],
  [⟨-3423265984407291, 10000000000000000, [0, 0, 0, 0, 1]⟩, ⟨1026979795322187, 1000000000000000, [0, 0, 2, 0, 1]⟩],
  [⟨-3423265984407291, 10000000000000000, [0, 0, 0, 0, 1]⟩, ⟨1026979795322187, 1000000000000000, [0, 0, 0, 2, 1]⟩],
  [⟨-3423265984407291, 10000000000000000, [1, 0, 0, 0, 0]⟩, ⟨1026979795322187, 1000000000000000, [1, 0, 0, 0, 2]⟩],
  [⟨-3423265984407291, 10000000000000000, [0, 1, 0, 0, 0]⟩, ⟨1026979795322187, 1000000000000000, [0, 1, 0, 0, 2]⟩],
  [⟨-3423265984407291, 10000000000000000, [0, 0, 1, 0, 0]⟩, ⟨1026979795322187, 1000000000000000, [0, 0, 1, 0, 2]⟩],
  [⟨-3423265984407291, 10000000000000000, [0, 0, 0, 1, 0]⟩, ⟨1026979795322187, 1000000000000000, [0, 0, 0, 1, 2]⟩],
  [⟨-701560760020114, 1000000000000000, [1, 0, 0, 0, 0]⟩, ⟨1169267933366857, 1000000000000000, [3, 0, 0, 0, 0]⟩],
  [⟨-701560760020114, 1000000000000000, [0, 1, 0, 0, 0]⟩, ⟨1169267933366857, 1000000000000000, [0, 3, 0, 0, 0]⟩],
  [⟨-701560760020114, 1000000000000000, [0, 0, 1, 0, 0]⟩, ⟨1169267933366857, 1000000000000000, [0, 0, 3, 0, 0]⟩],
  [⟨-701560760020114, 1000000000000000, [0, 0, 0, 1, 0]⟩, ⟨1169267933366857, 1000000000000000, [0, 0, 0, 3, 0]⟩],
  [⟨-701560760020114, 1000000000000000, [0, 0, 0, 0, 1]⟩, ⟨1169267933366857, 1000000000000000, [0, 0, 0, 0, 3]⟩]]

/-- computeDerivativeMatrices.py:4645-4844. -/
def modalMax5p4 : List Poly := [
  [⟨1767766952966367, 10000000000000000, [0, 0, 0, 0, 0]⟩],
  [⟨3061862178478966, 10000000000000000, [1, 0, 0, 0, 0]⟩],
  [⟨3061862178478966, 10000000000000000, [0, 1, 0, 0, 0]⟩],
  [⟨3061862178478966, 10000000000000000, [0, 0, 1, 0, 0]⟩],
  [⟨3061862178478966, 10000000000000000, [0, 0, 0, 1, 0]⟩],
  [⟨3061862178478966, 10000000000000000, [0, 0, 0, 0, 1]⟩],
  [⟨5303300858899102, 10000000000000000, [1, 1, 0, 0, 0]⟩],
  [⟨5303300858899102, 10000000000000000, [1, 0, 1, 0, 0]⟩],
  [⟨5303300858899102, 10000000000000000, [0, 1, 1, 0, 0]⟩],
  [⟨5303300858899102, 10000000000000000, [1, 0, 0, 1, 0]⟩],
  [⟨5303300858899102, 10000000000000000, [0, 1, 0, 1, 0]⟩],
  [⟨5303300858899102, 10000000000000000, [0, 0, 1, 1, 0]⟩],
  [⟨5303300858899102, 10000000000000000, [1, 0, 0, 0, 1]⟩],
  [⟨5303300858899102, 10000000000000000, [0, 1, 0, 0, 1]⟩],
  [⟨5303300858899102, 10000000000000000, [0, 0, 1, 0, 1]⟩],
  [⟨5303300858899102, 10000000000000000, [0, 0, 0, 1, 1]⟩],
  [⟨-1976423537605237, 10000000000000000, [0, 0, 0, 0, 0]⟩, ⟨592927061281571, 1000000000000000, [2, 0, 0, 0, 0]⟩],
  [⟨-1976423537605237, 10000000000000000, [0, 0, 0, 0, 0]⟩, ⟨592927061281571, 1000000000000000, [0, 2, 0, 0, 0]⟩],
  [⟨-1976423537605237, 10000000000000000, [0, 0, 0, 0, 0]⟩, ⟨592927061281571, 1000000000000000, [0, 0, 2, 0, 0]⟩],
  [⟨-1976423537605237, 10000000000000000, [0, 0, 0, 0, 0]⟩, ⟨592927061281571, 1000000000000000, [0, 0, 0, 2, 0]⟩],
  [⟨-1976423537605237, 10000000000000000, [0, 0, 0, 0, 0]⟩, ⟨592927061281571, 1000000000000000, [0, 0, 0, 0, 2]⟩],
  [⟨9185586535436896, 10000000000000000, [1, 1, 1, 0, 0]⟩],
  [⟨9185586535436896, 10000000000000000, [1, 1, 0, 1, 0]⟩],
  [⟨9185586535436896, 10000000000000000, [1, 0, 1, 1, 0]⟩],
  [⟨9185586535436896, 10000000000000000, [0, 1, 1, 1, 0]⟩],
  [⟨9185586535436896, 10000000000000000, [1, 1, 0, 0, 1]⟩],
  [⟨9185586535436896, 10000000000000000, [1, 0, 1, 0, 1]⟩],
  [⟨9185586535436896, 10000000000000000, [0, 1, 1, 0, 1]⟩],
  [⟨9185586535436896, 10000000000000000, [1, 0, 0, 1, 1]⟩],
  [⟨9185586535436896, 10000000000000000, [0, 1, 0, 1, 1]⟩],
  [⟨9185586535436896, 10000000000000000, [0, 0, 1, 1, 1]⟩],
  [⟨-3423265984407291, 10000000000000000, [0, 1, 0, 0, 0]⟩, ⟨1026979795322187, 1000000000000000, [2, 1, 0, 0, 0]⟩],
  [⟨-3423265984407291, 10000000000000000, [1, 0, 0, 0, 0]⟩, ⟨1026979795322187, 1000000000000000, [1, 2, 0, 0, 0]⟩],
  [⟨-3423265984407291, 10000000000000000, [0, 0, 1, 0, 0]⟩, ⟨1026979795322187, 1000000000000000, [2, 0, 1, 0, 0]⟩],
  [⟨-3423265984407291, 10000000000000000, [0, 0, 1, 0, 0]⟩, ⟨1026979795322187, 1000000000000000, [0, 2, 1, 0, 0]⟩],
  [⟨-3423265984407291, 10000000000000000, [1, 0, 0, 0, 0]⟩, ⟨1026979795322187, 1000000000000000, [1, 0, 2, 0, 0]⟩],
  [⟨-3423265984407291, 10000000000000000, [0, 1, 0, 0, 0]⟩, ⟨1026979795322187, 1000000000000000, [0, 1, 2, 0, 0]⟩],
  [⟨-3423265984407291, 10000000000000000, [0, 0, 0, 1, 0]⟩, ⟨1026979795322187, 1000000000000000, [2, 0, 0, 1, 0]⟩],
  [⟨-3423265984407291, 10000000000000000, [0, 0, 0, 1, 0]⟩, ⟨1026979795322187, 1000000000000000, [0, 2, 0, 1, 0]⟩],
  [⟨-3423265984407291, 10000000000000000, [0, 0, 0, 1, 0]⟩, ⟨1026979795322187, 1000000000000000, [0, 0, 2, 1, 0]⟩],
  [⟨-3423265984407291, 10000000000000000, [1, 0, 0, 0, 0]⟩, ⟨1026979795322187, 1000000000000000, [1, 0, 0, 2, 0]⟩],
  [⟨-3423265984407291, 10000000000000000, [0, 1, 0, 0, 0]⟩, ⟨1026979795322187, 1000000000000000, [0, 1, 0, 2, 0]⟩],
  [⟨-3423265984407291, 10000000000000000, [0, 0, 1, 0, 0]⟩, ⟨1026979795322187, 1000000000000000, [0, 0, 1, 2, 0]⟩],
  [⟨-3423265984407291, 10000000000000000, [0, 0, 0, 0, 1]⟩, ⟨1026979795322187, 1000000000000000, [2, 0, 0, 0, 1]⟩],
  [⟨-3423265984407291, 10000000000000000, [0, 0, 0, 0, 1]⟩, ⟨1026979795322187, 1000000000000000, [0, 2, 0, 0, 1]⟩],
  [⟨-3423265984407291, 10000000000000000, [0, 0, 0, 0, 1]⟩, ⟨1026979795322187, 1000000000000000, [0, 0, 2, 0, 1]⟩],
  [⟨-3423265984407291, 10000000000000000, [0, 0, 0, 0, 1]⟩, ⟨1026979795322187, 1000000000000000, [0, 0, 0, 2, 1]⟩],
  [⟨-3423265984407291, 10000000000000000, [1, 0, 0, 0, 0]⟩, ⟨1026979795322187, 1000000000000000, [1, 0, 0, 0, 2]⟩],
  [⟨-3423265984407291, 10000000000000000, [0, 1, 0, 0, 0]⟩, ⟨1026979795322187, 1000000000000000, [0, 1, 0, 0, 2]⟩],
  [⟨-3423265984407291, 10000000000000000, [0, 0, 1, 0, 0]⟩, ⟨1026979795322187, 1000000000000000, [0, 0, 1, 0, 2]⟩],
  [⟨-3423265984407291, 10000000000000000, [0, 0, 0, 1, 0]⟩, ⟨1026979795322187, 1000000000000000, [0, 0, 0, 1, 2]⟩],
  [⟨-701560760020114, 1000000000000000, [1, 0, 0, 0, 0]⟩, ⟨1169267933366857, 1000000000000000, [3, 0, 0, 0, 0]⟩],
  [⟨-701560760020114, 1000000000000000, [0, 1, 0, 0, 0]⟩, ⟨1169267933366857, 1000000000000000, [0, 3, 0, 0, 0]⟩],
  [⟨-701560760020114, 1000000000000000, [0, 0, 1, 0, 0]⟩, ⟨1169267933366857, 1000000000000000, [0, 0, 3, 0, 0]⟩],
  [⟨-701560760020114, 1000000000000000, [0, 0, 0, 1, 0]⟩, ⟨1169267933366857, 1000000000000000, [0, 0, 0, 3, 0]⟩],
  [⟨-701560760020114, 1000000000000000, [0, 0, 0, 0, 1]⟩, ⟨1169267933366857, 1000000000000000, [0, 0, 0, 0, 3]⟩],
  [⟨1590990257669732, 1000000000000000, [1, 1, 1, 1, 0]⟩],
  [⟨1590990257669732, 1000000000000000, [1, 1, 1, 0, 1]⟩],
  [⟨1590990257669732, 1000000000000000, [1, 1, 0, 1, 1]⟩],
  [⟨1590990257669732, 1000000000000000, [1, 0, 1, 1, 1]⟩],
  [⟨1590990257669732, 1000000000000000, [0, 1, 1, 1, 1]⟩],
  [⟨-5929270612815707, 10000000000000000, [0, 1, 1, 0, 0]⟩, ⟨1778781183844712, 1000000000000000, [2, 1, 1, 0, 0]⟩],
  [⟨-5929270612815707, 10000000000000000, [1, 0, 1, 0, 0]⟩, ⟨1778781183844712, 1000000000000000, [1, 2, 1, 0, 0]⟩],
  [⟨-5929270612815707, 10000000000000000, [1, 1, 0, 0, 0]⟩, ⟨1778781183844712, 1000000000000000, [1, 1, 2, 0, 0]⟩],
  [⟨-5929270612815707, 10000000000000000, [0, 1, 0, 1, 0]⟩, ⟨1778781183844712, 1000000000000000, [2, 1, 0, 1, 0]⟩],
  [⟨-5929270612815707, 10000000000000000, [1, 0, 0, 1, 0]⟩, ⟨1778781183844712, 1000000000000000, [1, 2, 0, 1, 0]⟩],
  [⟨-5929270612815707, 10000000000000000, [0, 0, 1, 1, 0]⟩, ⟨1778781183844712, 1000000000000000, [2, 0, 1, 1, 0]⟩],
  [⟨-5929270612815707, 10000000000000000, [0, 0, 1, 1, 0]⟩, ⟨1778781183844712, 1000000000000000, [0, 2, 1, 1, 0]⟩],
  [⟨-5929270612815707, 10000000000000000, [1, 0, 0, 1, 0]⟩, ⟨1778781183844712, 1000000000000000, [1, 0, 2, 1, 0]⟩],
  [⟨-5929270612815707, 10000000000000000, [0, 1, 0, 1, 0]⟩, ⟨1778781183844712, 1000000000000000, [0, 1, 2, 1, 0]⟩],
  [⟨-5929270612815707, 10000000000000000, [1, 1, 0, 0, 0]⟩, ⟨1778781183844712, 1000000000000000, [1, 1, 0, 2, 0]⟩],
  [⟨-5929270612815707, 10000000000000000, [1, 0, 1, 0, 0]⟩, ⟨1778781183844712, 1000000000000000, [1, 0, 1, 2, 0]⟩],
  [⟨-5929270612815707, 10000000000000000, [0, 1, 1, 0, 0]⟩, ⟨1778781183844712, 1000000000000000, [0, 1, 1, 2, 0]⟩],
  [⟨-5929270612815707, 10000000000000000, [0, 1, 0, 0, 1]⟩, ⟨1778781183844712, 1000000000000000, [2, 1, 0, 0, 1]⟩],
  [⟨-5929270612815707, 10000000000000000, [1, 0, 0, 0, 1]⟩, ⟨1778781183844712, 1000000000000000, [1, 2, 0, 0, 1]⟩],
  [⟨-5929270612815707, 10000000000000000, [0, 0, 1, 0, 1]⟩, ⟨1778781183844712, 1000000000000000, [2, 0, 1, 0, 1]⟩],
  [⟨-5929270612815707, 10000000000000000, [0, 0, 1, 0, 1]⟩, ⟨1778781183844712, 1000000000000000, [0, 2, 1, 0, 1]⟩],
  [⟨-5929270612815707, 10000000000000000, [1, 0, 0, 0, 1]⟩, ⟨1778781183844712, 1000000000000000, [1, 0, 2, 0, 1]⟩],
  [⟨-5929270612815707, 10000000000000000, [0, 1, 0, 0, 1]⟩, ⟨1778781183844712, 1000000000000000, [0, 1, 2, 0, 1]⟩],
  [⟨-5929270612815707, 10000000000000000, [0, 0, 0, 1, 1]⟩, ⟨1778781183844712, 1000000000000000, [2, 0, 0, 1, 1]⟩],
  [⟨-5929270612815707, 10000000000000000, [0, 0, 0, 1, 1]⟩, ⟨1778781183844712, 1000000000000000, [0, 2, 0, 1, 1]⟩],
  [⟨-5929270612815707, 10000000000000000, [0, 0, 0, 1, 1]⟩, ⟨1778781183844712, 1000000000000000, [0, 0, 2, 1, 1]⟩],
  [⟨-5929270612815707, 10000000000000000, [1, 0, 0, 0, 1]⟩, ⟨1778781183844712, 1000000000000000, [1, 0, 0, 2, 1]⟩],
  [⟨-5929270612815707, 10000000000000000, [0, 1, 0, 0, 1]⟩, ⟨1778781183844712, 1000000000000000, [0, 1, 0, 2, 1]⟩],
  [⟨-5929270612815707, 10000000000000000, [0, 0, 1, 0, 1]⟩, ⟨1778781183844712, 1000000000000000, [0, 0, 1, 2, 1]⟩],
  [⟨-5929270612815707, 10000000000000000, [1, 1, 0, 0, 0]⟩, ⟨1778781183844712, 1000000000000000, [1, 1, 0, 0, 2]⟩],
  [⟨-5929270612815707, 10000000000000000, [1, 0, 1, 0, 0]⟩, ⟨1778781183844712, 1000000000000000, [1, 0, 1, 0, 2]⟩],
  [⟨-5929270612815707, 10000000000000000, [0, 1, 1, 0, 0]⟩, ⟨1778781183844712, 1000000000000000, [0, 1, 1, 0, 2]⟩],
  [⟨-5929270612815707, 10000000000000000, [1, 0, 0, 1, 0]⟩, ⟨1778781183844712, 1000000000000000, [1, 0, 0, 1, 2]⟩],
  [⟨-5929270612815707, 10000000000000000, [0, 1, 0, 1, 0]⟩, ⟨1778781183844712, 1000000000000000, [0, 1, 0, 1, 2]⟩],
  [⟨-5929270612815707, 10000000000000000, [0, 0, 1, 1, 0]⟩, ⟨1778781183844712, 1000000000000000, [0, 0, 1, 1, 2]⟩],
  [⟨2209708691207962, 10000000000000000, [0, 0, 0, 0, 0]⟩, ⟨-6629126073623886, 10000000000000000, [0, 2, 0, 0, 0]⟩, ⟨-6629126073623886, 10000000000000000, [2, 0, 0, 0, 0]⟩, ⟨1988737822087165, 1000000000000000, [2, 2, 0, 0, 0]⟩],
  [⟨2209708691207962, 10000000000000000, [0, 0, 0, 0, 0]⟩, ⟨-6629126073623886, 10000000000000000, [0, 0, 2, 0, 0]⟩, ⟨-6629126073623886, 10000000000000000, [2, 0, 0, 0, 0]⟩, ⟨1988737822087165, 1000000000000000, [2, 0, 2, 0, 0]⟩],
  [⟨2209708691207962, 10000000000000000, [0, 0, 0, 0, 0]⟩, ⟨-6629126073623886, 10000000000000000, [0, 0, 2, 0, 0]⟩, ⟨-6629126073623886, 10000000000000000, [0, 2, 0, 0, 0]⟩, ⟨1988737822087165, 1000000000000000, [0, 2, 2, 0, 0]⟩],
  [⟨2209708691207962, 10000000000000000, [0, 0, 0, 0, 0]⟩, ⟨-6629126073623886, 10000000000000000, [0, 0, 0, 2, 0]⟩, ⟨-6629126073623886, 10000000000000000, [2, 0, 0, 0, 0]⟩, ⟨1988737822087165, 1000000000000000, [2, 0, 0, 2, 0]⟩],
  [⟨2209708691207962, 10000000000000000, [0, 0, 0, 0, 0]⟩, ⟨-6629126073623886, 10000000000000000, [0, 0, 0, 2, 0]⟩, ⟨-6629126073623886, 10000000000000000, [0, 2, 0, 0, 0]⟩, ⟨1988737822087165, 1000000000000000, [0, 2, 0, 2, 0]⟩],
  [⟨2209708691207962, 10000000000000000, [0, 0, 0, 0, 0]⟩, ⟨-6629126073623886, 10000000000000000, [0, 0, 0, 2, 0]⟩, ⟨-6629126073623886, 10000000000000000, [0, 0, 2, 0, 0]⟩, ⟨1988737822087165, 1000000000000000, [0, 0, 2, 2, 0]⟩],
  [⟨2209708691207962, 10000000000000000, [0, 0, 0, 0, 0]⟩, ⟨-6629126073623886, 10000000000000000, [0, 0, 0, 0, 2]⟩, ⟨-6629126073623886, 10000000000000000, [2, 0, 0, 0, 0]⟩, ⟨1988737822087165, 1000000000000000, [2, 0, 0, 0, 2]⟩],
  [⟨2209708691207962, 10000000000000000, [0, 0, 0, 0, 0]⟩, ⟨-6629126073623886, 10000000000000000, [0, 0, 0, 0, 2]⟩, ⟨-6629126073623886, 10000000000000000, [0, 2, 0, 0, 0]⟩, ⟨1988737822087165, 1000000000000000, [0, 2, 0, 0, 2]⟩],
  [⟨2209708691207962, 10000000000000000, [0, 0, 0, 0, 0]⟩, ⟨-6629126073623886, 10000000000000000, [0, 0, 0, 0, 2]⟩, ⟨-6629126073623886, 10000000000000000, [0, 0, 2, 0, 0]⟩, ⟨1988737822087165, 1000000000000000, [0, 0, 2, 0, 2]⟩],
  [⟨2209708691207962, 10000000000000000, [0, 0, 0, 0, 0]⟩, ⟨-6629126073623886, 10000000000000000, [0, 0, 0, 0, 2]⟩, ⟨-6629126073623886, 10000000000000000, [0, 0, 0, 2, 0]⟩, ⟨1988737822087165, 1000000000000000, [0, 0, 0, 2, 2]⟩],
  [⟨-1215138880951473, 1000000000000000, [1, 1, 0, 0, 0]⟩, ⟨2025231468252455, 1000000000000000, [3, 1, 0, 0, 0]⟩],
  [⟨-1215138880951473, 1000000000000000, [1, 1, 0, 0, 0]⟩, ⟨2025231468252455, 1000000000000000, [1, 3, 0, 0, 0]⟩],
  [⟨-1215138880951473, 1000000000000000, [1, 0, 1, 0, 0]⟩, ⟨2025231468252455, 1000000000000000, [3, 0, 1, 0, 0]⟩],
  [⟨-1215138880951473, 1000000000000000, [0, 1, 1, 0, 0]⟩, ⟨2025231468252455, 1000000000000000, [0, 3, 1, 0, 0]⟩],
  [⟨-1215138880951473, 1000000000000000, [1, 0, 1, 0, 0]⟩, ⟨2025231468252455, 1000000000000000, [1, 0, 3, 0, 0]⟩],
  [⟨-1215138880951473, 1000000000000000, [0, 1, 1, 0, 0]⟩, ⟨2025231468252455, 1000000000000000, [0, 1, 3, 0, 0]⟩],
  [⟨-1215138880951473, 1000000000000000, [1, 0, 0, 1, 0]⟩, ⟨2025231468252455, 1000000000000000, [3, 0, 0, 1, 0]⟩],
  [⟨-1215138880951473, 1000000000000000, [0, 1, 0, 1, 0]⟩, ⟨2025231468252455, 1000000000000000, [0, 3, 0, 1, 0]⟩],
  [⟨-1215138880951473, 1000000000000000, [0, 0, 1, 1, 0]⟩, ⟨2025231468252455, 1000000000000000, [0, 0, 3, 1, 0]⟩],
  [⟨-1215138880951473, 1000000000000000, [1, 0, 0, 1, 0]⟩, ⟨2025231468252455, 1000000000000000, [1, 0, 0, 3, 0]⟩],
  [⟨-1215138880951473, 1000000000000000, [0, 1, 0, 1, 0]⟩, ⟨2025231468252455, 1000000000000000, [0, 1, 0, 3, 0]⟩],
  [⟨-1215138880951473, 1000000000000000, [0, 0, 1, 1, 0]⟩, ⟨2025231468252455, 1000000000000000, [0, 0, 1, 3, 0]⟩],
  [⟨-1215138880951473, 1000000000000000, [1, 0, 0, 0, 1]⟩, ⟨2025231468252455, 1000000000000000, [3, 0, 0, 0, 1]⟩],
  [⟨-1215138880951473, 1000000000000000, [0, 1, 0, 0, 1]⟩, ⟨2025231468252455, 1000000000000000, [0, 3, 0, 0, 1]⟩],
  [⟨-1215138880951473, 1000000000000000, [0, 0, 1, 0, 1]⟩, ⟨2025231468252455, 1000000000000000, [0, 0, 3, 0, 1]⟩],
  [⟨-1215138880951473, 1000000000000000, [0, 0, 0, 1, 1]⟩, ⟨2025231468252455, 1000000000000000, [0, 0, 0, 3, 1]⟩],
  [⟨-1215138880951473, 1000000000000000, [1, 0, 0, 0, 1]⟩, ⟨2025231468252455, 1000000000000000, [1, 0, 0, 0, 3]⟩],
  [⟨-1215138880951473, 1000000000000000, [0, 1, 0, 0, 1]⟩, ⟨2025231468252455, 1000000000000000, [0, 1, 0, 0, 3]⟩],
  [⟨-1215138880951473, 1000000000000000, [0, 0, 1, 0, 1]⟩, ⟨2025231468252455, 1000000000000000, [0, 0, 1, 0, 3]⟩],
  [⟨-1215138880951473, 1000000000000000, [0, 0, 0, 1, 1]⟩, ⟨2025231468252455, 1000000000000000, [0, 0, 0, 1, 3]⟩],
  [⟨1988737822087163, 10000000000000000, [0, 0, 0, 0, 0]⟩, ⟨-1988737822087163, 1000000000000000, [2, 0, 0, 0, 0]⟩, ⟨2320194125768356, 1000000000000000, [4, 0, 0, 0, 0]⟩],
  [⟨1988737822087163, 10000000000000000, [0, 0, 0, 0, 0]⟩, ⟨-1988737822087163, 1000000000000000, [0, 2, 0, 0, 0]⟩, ⟨2320194125768356, 1000000000000000, [0, 4, 0, 0, 0]⟩],
  [⟨1988737822087163, 10000000000000000, [0, 0, 0, 0, 0]⟩, ⟨-1988737822087163, 1000000000000000, [0, 0, 2, 0, 0]⟩, ⟨2320194125768356, 1000000000000000, [0, 0, 4, 0, 0]⟩],
  [⟨1988737822087163, 10000000000000000, [0, 0, 0, 0, 0]⟩, ⟨-1988737822087163, 1000000000000000, [0, 0, 0, 2, 0]⟩, ⟨2320194125768356, 1000000000000000, [0, 0, 0, 4, 0]⟩],
  [⟨1988737822087163, 10000000000000000, [0, 0, 0, 0, 0]⟩, ⟨-1988737822087163, 1000000000000000, [0, 0, 0, 0, 2]⟩, ⟨2320194125768356, 1000000000000000, [0, 0, 0, 0, 4]⟩]]

/-- computeDerivativeMatrices.py:4906-4941. -/
def modalSer5p1 : List Poly := [
  [⟨1767766952966367, 10000000000000000, [0, 0, 0, 0, 0]⟩],
  [⟨3061862178478966, 10000000000000000, [1, 0, 0, 0, 0]⟩],
  [⟨3061862178478966, 10000000000000000, [0, 1, 0, 0, 0]⟩],
  [⟨3061862178478966, 10000000000000000, [0, 0, 1, 0, 0]⟩],
  [⟨3061862178478966, 10000000000000000, [0, 0, 0, 1, 0]⟩],
  [⟨3061862178478966, 10000000000000000, [0, 0, 0, 0, 1]⟩],
  [⟨5303300858899102, 10000000000000000, [1, 1, 0, 0, 0]⟩],
  [⟨5303300858899102, 10000000000000000, [1, 0, 1, 0, 0]⟩],
  [⟨5303300858899102, 10000000000000000, [0, 1, 1, 0, 0]⟩],
  [⟨5303300858899102, 10000000000000000, [1, 0, 0, 1, 0]⟩],
  [⟨5303300858899102, 10000000000000000, [0, 1, 0, 1, 0]⟩],
  [⟨5303300858899102, 10000000000000000, [0, 0, 1, 1, 0]⟩],
  [⟨5303300858899102, 10000000000000000, [1, 0, 0, 0, 1]⟩],
  [⟨5303300858899102, 10000000000000000, [0, 1, 0, 0, 1]⟩],
  [⟨5303300858899102, 10000000000000000, [0, 0, 1, 0, 1]⟩],
  [⟨5303300858899102, 10000000000000000, [0, 0, 0, 1, 1]⟩],
  [⟨9185586535436896, 10000000000000000, [1, 1, 1, 0, 0]⟩],
  [⟨9185586535436896, 10000000000000000, [1, 1, 0, 1, 0]⟩],
  [⟨9185586535436896, 10000000000000000, [1, 0, 1, 1, 0]⟩],
  [⟨9185586535436896, 10000000000000000, [0, 1, 1, 1, 0]⟩],
  [⟨9185586535436896, 10000000000000000, [1, 1, 0, 0, 1]⟩],
  [⟨9185586535436896, 10000000000000000, [1, 0, 1, 0, 1]⟩],
  [⟨9185586535436896, 10000000000000000, [0, 1, 1, 0, 1]⟩],
  [⟨9185586535436896, 10000000000000000, [1, 0, 0, 1, 1]⟩],
  [⟨9185586535436896, 10000000000000000, [0, 1, 0, 1, 1]⟩],
  [⟨9185586535436896, 10000000000000000, [0, 0, 1, 1, 1]⟩],
  [⟨1590990257669732, 1000000000000000, [1, 1, 1, 1, 0]⟩],
  [⟨1590990257669732, 1000000000000000, [1, 1, 1, 0, 1]⟩],
  [⟨1590990257669732, 1000000000000000, [1, 1, 0, 1, 1]⟩],
  [⟨1590990257669732, 1000000000000000, [1, 0, 1, 1, 1]⟩],
  [⟨1590990257669732, 1000000000000000, [0, 1, 1, 1, 1]⟩],
  [⟨2755675960631069, 1000000000000000, [1, 1, 1, 1, 1]⟩]]

/-- computeDerivativeMatrices.py:4995-5125. -/
def modalSer5p2 : List Poly := [
  [⟨1767766952966367, 10000000000000000, [0, 0, 0, 0, 0]⟩],
  [⟨3061862178478966, 10000000000000000, [1, 0, 0, 0, 0]⟩],
  [⟨3061862178478966, 10000000000000000, [0, 1, 0, 0, 0]⟩],
  [⟨3061862178478966, 10000000000000000, [0, 0, 1, 0, 0]⟩],
  [⟨3061862178478966, 10000000000000000, [0, 0, 0, 1, 0]⟩],
  [⟨3061862178478966, 10000000000000000, [0, 0, 0, 0, 1]⟩],
  [⟨5303300858899102, 10000000000000000, [1, 1, 0, 0, 0]⟩],
  [⟨5303300858899102, 10000000000000000, [1, 0, 1, 0, 0]⟩],
  [⟨5303300858899102, 10000000000000000, [0, 1, 1, 0, 0]⟩],
  [⟨5303300858899102, 10000000000000000, [1, 0, 0, 1, 0]⟩],
  [⟨5303300858899102, 10000000000000000, [0, 1, 0, 1, 0]⟩],
  [⟨5303300858899102, 10000000000000000, [0, 0, 1, 1, 0]⟩],
  [⟨5303300858899102, 10000000000000000, [1, 0, 0, 0, 1]⟩],
  [⟨5303300858899102, 10000000000000000, [0, 1, 0, 0, 1]⟩],
  [⟨5303300858899102, 10000000000000000, [0, 0, 1, 0, 1]⟩],
  [⟨5303300858899102, 10000000000000000, [0, 0, 0, 1, 1]⟩],
  [⟨-1976423537605237, 10000000000000000, [0, 0, 0, 0, 0]⟩, ⟨592927061281571, 1000000000000000, [2, 0, 0, 0, 0]⟩],
  [⟨-1976423537605237, 10000000000000000, [0, 0, 0, 0, 0]⟩, ⟨592927061281571, 1000000000000000, [0, 2, 0, 0, 0]⟩],
  [⟨-1976423537605237, 10000000000000000, [0, 0, 0, 0, 0]⟩, ⟨592927061281571, 1000000000000000, [0, 0, 2, 0, 0]⟩],
  [⟨-1976423537605237, 10000000000000000, [0, 0, 0, 0, 0]⟩, ⟨592927061281571, 1000000000000000, [0, 0, 0, 2, 0]⟩],
  [⟨-1976423537605237, 10000000000000000, [0, 0, 0, 0, 0]⟩, ⟨592927061281571, 1000000000000000, [0, 0, 0, 0, 2]⟩],
  [⟨9185586535436896, 10000000000000000, [1, 1, 1, 0, 0]⟩],
  [⟨9185586535436896, 10000000000000000, [1, 1, 0, 1, 0]⟩],
  [⟨9185586535436896, 10000000000000000, [1, 0, 1, 1, 0]⟩],
  [⟨9185586535436896, 10000000000000000, [0, 1, 1, 1, 0]⟩],
  [⟨9185586535436896, 10000000000000000, [1, 1, 0, 0, 1]⟩],
  [⟨9185586535436896, 10000000000000000, [1, 0, 1, 0, 1]⟩],
  [⟨9185586535436896, 10000000000000000, [0, 1, 1, 0, 1]⟩],
  [⟨9185586535436896, 10000000000000000, [1, 0, 0, 1, 1]⟩],
  [⟨9185586535436896, 10000000000000000, [0, 1, 0, 1, 1]⟩],
  [⟨9185586535436896, 10000000000000000, [0, 0, 1, 1, 1]⟩],
  [⟨-3423265984407291, 10000000000000000, [0, 1, 0, 0, 0]⟩, ⟨1026979795322187, 1000000000000000, [2, 1, 0, 0, 0]⟩],
  [⟨-3423265984407291, 10000000000000000, [1, 0, 0, 0, 0]⟩, ⟨1026979795322187, 1000000000000000, [1, 2, 0, 0, 0]⟩],
  [⟨-3423265984407291, 10000000000000000, [0, 0, 1, 0, 0]⟩, ⟨1026979795322187, 1000000000000000, [2, 0, 1, 0, 0]⟩],
  [⟨-3423265984407291, 10000000000000000, [0, 0, 1, 0, 0]⟩, ⟨1026979795322187, 1000000000000000, [0, 2, 1, 0, 0]⟩],
  [⟨-3423265984407291, 10000000000000000, [1, 0, 0, 0, 0]⟩, ⟨1026979795322187, 1000000000000000, [1, 0, 2, 0, 0]⟩],
  [⟨-3423265984407291, 10000000000000000, [0, 1, 0, 0, 0]⟩, ⟨1026979795322187, 1000000000000000, [0, 1, 2, 0, 0]⟩],
  [⟨-3423265984407291, 10000000000000000, [0, 0, 0, 1, 0]⟩, ⟨1026979795322187, 1000000000000000, [2, 0, 0, 1, 0]⟩],
  [⟨-3423265984407291, 10000000000000000, [0, 0, 0, 1, 0]⟩, ⟨1026979795322187, 1000000000000000, [0, 2, 0, 1, 0]⟩],
  [⟨-3423265984407291, 10000000000000000, [0, 0, 0, 1, 0]⟩, ⟨1026979795322187, 1000000000000000, [0, 0, 2, 1, 0]⟩],
  [⟨-3423265984407291, 10000000000000000, [1, 0, 0, 0, 0]⟩, ⟨1026979795322187, 1000000000000000, [1, 0, 0, 2, 0]⟩],
  [⟨-3423265984407291, 10000000000000000, [0, 1, 0, 0, 0]⟩, ⟨1026979795322187, 1000000000000000, [0, 1, 0, 2, 0]⟩],
  [⟨-3423265984407291, 10000000000000000, [0, 0, 1, 0, 0]⟩, ⟨1026979795322187, 1000000000000000, [0, 0, 1, 2, 0]⟩],
  [⟨-3423265984407291, 10000000000000000, [0, 0, 0, 0, 1]⟩, ⟨1026979795322187, 1000000000000000, [2, 0, 0, 0, 1]⟩],
  [⟨-3423265984407291, 10000000000000000, [0, 0, 0, 0, 1]⟩, ⟨1026979795322187, 1000000000000000, [0, 2, 0, 0, 1]⟩],
  [⟨-3423265984407291, 10000000000000000, [0, 0, 0, 0, 1]⟩, ⟨1026979795322187, 1000000000000000, [0, 0, 2, 0, 1]⟩],
  [⟨-3423265984407291, 10000000000000000, [0, 0, 0, 0, 1]⟩, ⟨1026979795322187, 1000000000000000, [0, 0, 0, 2, 1]⟩],
  [⟨-3423265984407291, 10000000000000000, [1, 0, 0, 0, 0]⟩, ⟨1026979795322187, 1000000000000000, [1, 0, 0, 0, 2]⟩],
  [⟨-3423265984407291, 10000000000000000, [0, 1, 0, 0, 0]⟩, ⟨1026979795322187, 1000000000000000, [0, 1, 0, 0, 2]⟩],
  [⟨-3423265984407291, 10000000000000000, [0, 0, 1, 0, 0]⟩, ⟨1026979795322187, 1000000000000000, [0, 0, 1, 0, 2]⟩],
  [⟨-3423265984407291, 10000000000000000, [0, 0, 0, 1, 0]⟩, ⟨1026979795322187, 1000000000000000, [0, 0, 0, 1, 2]⟩],
  [⟨1590990257669732, 1000000000000000, [1, 1, 1, 1, 0]⟩],
  [⟨1590990257669732, 1000000000000000, [1, 1, 1, 0, 1]⟩],
  [⟨1590990257669732, 1000000000000000, [1, 1, 0, 1, 1]⟩],
  [⟨1590990257669732, 1000000000000000, [1, 0, 1, 1, 1]⟩],
  [⟨1590990257669732, 1000000000000000, [0, 1, 1, 1, 1]⟩],
  [⟨-5929270612815707, 10000000000000000, [0, 1, 1, 0, 0]⟩, ⟨1778781183844712, 1000000000000000, [2, 1, 1, 0, 0]⟩],
  [⟨-5929270612815707, 10000000000000000, [1, 0, 1, 0, 0]⟩, ⟨1778781183844712, 1000000000000000, [1, 2, 1, 0, 0]⟩],
  [⟨-5929270612815707, 10000000000000000, [1, 1, 0, 0, 0]⟩, ⟨1778781183844712, 1000000000000000, [1, 1, 2, 0, 0]⟩],
  [⟨-5929270612815707, 10000000000000000, [0, 1, 0, 1, 0]⟩, ⟨1778781183844712, 1000000000000000, [2, 1, 0, 1, 0]⟩],
  [⟨-5929270612815707, 10000000000000000, [1, 0, 0, 1, 0]⟩, ⟨1778781183844712, 1000000000000000, [1, 2, 0, 1, 0]⟩],
  [⟨-5929270612815707, 10000000000000000, [0, 0, 1, 1, 0]⟩, ⟨1778781183844712, 1000000000000000, [2, 0, 1, 1, 0]⟩],
  [⟨-5929270612815707, 10000000000000000, [0, 0, 1, 1, 0]⟩, ⟨1778781183844712, 1000000000000000, [0, 2, 1, 1, 0]⟩],
  [⟨-5929270612815707, 10000000000000000, [1, 0, 0, 1, 0]⟩, ⟨1778781183844712, 1000000000000000, [1, 0, 2, 1, 0]⟩],
  [⟨-5929270612815707, 10000000000000000, [0, 1, 0, 1, 0]⟩, ⟨1778781183844712, 1000000000000000, [0, 1, 2, 1, 0]⟩],
  [⟨-5929270612815707, 10000000000000000, [1, 1, 0, 0, 0]⟩, ⟨1778781183844712, 1000000000000000, [1, 1, 0, 2, 0]⟩],
  [⟨-5929270612815707, 10000000000000000, [1, 0, 1, 0, 0]⟩, ⟨1778781183844712, 1000000000000000, [1, 0, 1, 2, 0]⟩],
  [⟨-5929270612815707, 10000000000000000, [0, 1, 1, 0, 0]⟩, ⟨1778781183844712, 1000000000000000, [0, 1, 1, 2, 0]⟩],
  [⟨-5929270612815707, 10000000000000000, [0, 1, 0, 0, 1]⟩, ⟨1778781183844712, 1000000000000000, [2, 1, 0, 0, 1]⟩],
  [⟨-5929270612815707, 10000000000000000, [1, 0, 0, 0, 1]⟩, ⟨1778781183844712, 1000000000000000, [1, 2, 0, 0, 1]⟩],
  [⟨-5929270612815707, 10000000000000000, [0, 0, 1, 0, 1]⟩, ⟨1778781183844712, 1000000000000000, [2, 0, 1, 0, 1]⟩],
  [⟨-5929270612815707, 10000000000000000, [0, 0, 1, 0, 1]⟩, ⟨1778781183844712, 1000000000000000, [0, 2, 1, 0, 1]⟩],
  [⟨-5929270612815707, 10000000000000000, [1, 0, 0, 0, 1]⟩, ⟨1778781183844712, 1000000000000000, [1, 0, 2, 0, 1]⟩],
  [⟨-5929270612815707, 10000000000000000, [0, 1, 0, 0, 1]⟩, ⟨1778781183844712, 1000000000000000, [0, 1, 2, 0, 1]⟩],
  [⟨-5929270612815707, 10000000000000000, [0, 0, 0, 1, 1]⟩, ⟨1778781183844712, 1000000000000000, [2, 0, 0, 1, 1]⟩],
  [⟨-5929270612815707, 10000000000000000, [0, 0, 0, 1, 1]⟩, ⟨1778781183844712, 1000000000000000, [0, 2, 0, 1, 1]⟩],
  [⟨-5929270612815707, 10000000000000000, [0, 0, 0, 1, 1]⟩, ⟨1778781183844712, 1000000000000000, [0, 0, 2, 1, 1]⟩],
  [⟨-5929270612815707, 10000000000000000, [1, 0, 0, 0, 1]⟩, ⟨1778781183844712, 1000000000000000, [1, 0, 0, 2, 1]⟩],
  [⟨-5929270612815707, 10000000000000000, [0, 1, 0, 0, 1]⟩, ⟨1778781183844712, 1000000000000000, [0, 1, 0, 2, 1]⟩],
  [⟨-5929270612815707, 10000000000000000, [0, 0, 1, 0, 1]⟩, ⟨1778781183844712, 1000000000000000, [0, 0, 1, 2, 1]⟩],
  [⟨-5929270612815707, 10000000000000000, [1, 1, 0, 0, 0]⟩, ⟨1778781183844712, 1000000000000000, [1, 1, 0, 0, 2]⟩],
  [⟨-5929270612815707, 10000000000000000, [1, 0, 1, 0, 0]⟩, ⟨1778781183844712, 1000000000000000, [1, 0, 1, 0, 2]⟩],
  [⟨-5929270612815707, 10000000000000000, [0, 1, 1, 0, 0]⟩, ⟨1778781183844712, 1000000000000000, [0, 1, 1, 0, 2]⟩],
  [⟨-5929270612815707, 10000000000000000, [1, 0, 0, 1, 0]⟩, ⟨1778781183844712, 1000000000000000, [1, 0, 0, 1, 2]⟩],
  [⟨-5929270612815707, 10000000000000000, [0, 1, 0, 1, 0]⟩, ⟨1778781183844712, 1000000000000000, [0, 1, 0, 1, 2]⟩],
  [⟨-5929270612815707, 10000000000000000, [0, 0, 1, 1, 0]⟩, ⟨1778781183844712, 1000000000000000, [0, 0, 1, 1, 2]⟩],
  [⟨2755675960631069, 1000000000000000, [1, 1, 1, 1, 1]⟩],
  [⟨-1026979795322186, 1000000000000000, [0, 1, 1, 1, 0]⟩, ⟨3080939385966559, 1000000000000000, [2, 1, 1, 1, 0]⟩],
  [⟨-1026979795322186, 1000000000000000, [1, 0, 1, 1, 0]⟩, ⟨3080939385966559, 1000000000000000, [1, 2, 1, 1, 0]⟩],
  [⟨-1026979795322186, 1000000000000000, [1, 1, 0, 1, 0]⟩, ⟨3080939385966559, 1000000000000000, [1, 1, 2, 1, 0]⟩],
  [⟨-1026979795322186, 1000000000000000, [1, 1, 1, 0, 0]⟩, ⟨3080939385966559, 1000000000000000, [1, 1, 1, 2, 0]⟩],
  [⟨-1026979795322186, 1000000000000000, [0, 1, 1, 0, 1]⟩, ⟨3080939385966559, 1000000000000000, [2, 1, 1, 0, 1]⟩],
  [⟨-1026979795322186, 1000000000000000, [1, 0, 1, 0, 1]⟩, ⟨3080939385966559, 1000000000000000, [1, 2, 1, 0, 1]⟩],
  [⟨-1026979795322186, 1000000000000000, [1, 1, 0, 0, 1]⟩, ⟨3080939385966559, 1000000000000000, [1, 1, 2, 0, 1]⟩],
  [⟨-1026979795322186, 1000000000000000, [0, 1, 0, 1, 1]⟩, ⟨3080939385966559, 1000000000000000, [2, 1, 0, 1, 1]⟩],
  [⟨-1026979795322186, 1000000000000000, [1, 0, 0, 1, 1]⟩, ⟨3080939385966559, 1000000000000000, [1, 2, 0, 1, 1]⟩],
  [⟨-1026979795322186, 1000000000000000, [0, 0, 1, 1, 1]⟩, ⟨3080939385966559, 1000000000000000, [2, 0, 1, 1, 1]⟩],
  [⟨-1026979795322186, 1000000000000000, [0, 0, 1, 1, 1]⟩, ⟨3080939385966559, 1000000000000000, [0, 2, 1, 1, 1]⟩],
  [⟨-1026979795322186, 1000000000000000, [1, 0, 0, 1, 1]⟩, ⟨3080939385966559, 1000000000000000, [1, 0, 2, 1, 1]⟩],
  [⟨-1026979795322186, 1000000000000000, [0, 1, 0, 1, 1]⟩, ⟨3080939385966559, 1000000000000000, [0, 1, 2, 1, 1]⟩],
  [⟨-1026979795322186, 1000000000000000, [1, 1, 0, 0, 1]⟩, ⟨3080939385966559, 1000000000000000, [1, 1, 0, 2, 1]⟩],
  [⟨-1026979795322186, 1000000000000000, [1, 0, 1, 0, 1]⟩, ⟨3080939385966559, 1000000000000000, [1, 0, 1, 2, 1]⟩],
  [⟨-1026979795322186, 1000000000000000, [0, 1, 1, 0, 1]⟩, ⟨3080939385966559, 1000000000000000, [0, 1, 1, 2, 1]⟩],
  [⟨-1026979795322186, 1000000000000000, [1, 1, 1, 0, 0]⟩, ⟨3080939385966559, 1000000000000000, [1, 1, 1, 0, 2]⟩],
  [⟨-1026979795322186, 1000000000000000, [1, 1, 0, 1, 0]⟩, ⟨3080939385966559, 1000000000000000, [1, 1, 0, 1, 2]⟩],
  [⟨-1026979795322186, 1000000000000000, [1, 0, 1, 1, 0]⟩, ⟨3080939385966559, 1000000000000000, [1, 0, 1, 1, 2]⟩],
  [⟨-1026979795322186, 1000000000000000, [0, 1, 1, 1, 0]⟩, ⟨3080939385966559, 1000000000000000, [0, 1, 1, 1, 2]⟩],
  [⟨-1778781183844715, 1000000000000000, [0, 1, 1, 1, 1]⟩, ⟨5336343551534144, 1000000000000000, [2, 1, 1, 1, 1]⟩],
  [⟨-1778781183844715, 1000000000000000, [1, 0, 1, 1, 1]⟩, ⟨5336343551534144, 1000000000000000, [1, 2, 1, 1, 1]⟩],
  [⟨-1778781183844715, 1000000000000000, [1, 1, 0, 1, 1]⟩, ⟨5336343551534144, 1000000000000000, [1, 1, 2, 1, 1]⟩],
  [⟨-1778781183844715, 1000000000000000, [1, 1, 1, 0, 1]⟩, ⟨5336343551534144, 1000000000000000, [1, 1, 1, 2, 1]⟩],
  [⟨-1778781183844715, 1000000000000000, [1, 1, 1, 1, 0]⟩, ⟨5336343551534144, 1000000000000000, [1, 1, 1, 1, 2]⟩]]

/-- computeDerivativeMatrices.py:5179-5464. -/
def modalSer5p3 : List Poly := [
  [⟨1767766952966367, 10000000000000000, [0, 0, 0, 0, 0]⟩],
  [⟨3061862178478966, 10000000000000000, [1, 0, 0, 0, 0]⟩],
  [⟨3061862178478966, 10000000000000000, [0, 1, 0, 0, 0]⟩],
  [⟨3061862178478966, 10000000000000000, [0, 0, 1, 0, 0]⟩],
  [⟨3061862178478966, 10000000000000000, [0, 0, 0, 1, 0]⟩],
  [⟨3061862178478966, 10000000000000000, [0, 0, 0, 0, 1]⟩],
  [⟨5303300858899102, 10000000000000000, [1, 1, 0, 0, 0]⟩],
  [⟨5303300858899102, 10000000000000000, [1, 0, 1, 0, 0]⟩],
  [⟨5303300858899102, 10000000000000000, [0, 1, 1, 0, 0]⟩],
  [⟨5303300858899102, 10000000000000000, [1, 0, 0, 1, 0]⟩],
  [⟨5303300858899102, 10000000000000000, [0, 1, 0, 1, 0]⟩],
  [⟨5303300858899102, 10000000000000000, [0, 0, 1, 1, 0]⟩],
  [⟨5303300858899102, 10000000000000000, [1, 0, 0, 0, 1]⟩],
  [⟨5303300858899102, 10000000000000000, [0, 1, 0, 0, 1]⟩],
  [⟨5303300858899102, 10000000000000000, [0, 0, 1, 0, 1]⟩],
  [⟨5303300858899102, 10000000000000000, [0, 0, 0, 1, 1]⟩],
  [⟨-1976423537605237, 10000000000000000, [0, 0, 0, 0, 0]⟩, ⟨592927061281571, 1000000000000000, [2, 0, 0, 0, 0]⟩],
  [⟨-1976423537605237, 10000000000000000, [0, 0, 0, 0, 0]⟩, ⟨592927061281571, 1000000000000000, [0, 2, 0, 0, 0]⟩],
  [⟨-1976423537605237, 10000000000000000, [0, 0, 0, 0, 0]⟩, ⟨592927061281571, 1000000000000000, [0, 0, 2, 0, 0]⟩],
  [⟨-1976423537605237, 10000000000000000, [0, 0, 0, 0, 0]⟩, ⟨592927061281571, 1000000000000000, [0, 0, 0, 2, 0]⟩],
  [⟨-1976423537605237, 10000000000000000, [0, 0, 0, 0, 0]⟩, ⟨592927061281571, 1000000000000000, [0, 0, 0, 0, 2]⟩],
  [⟨9185586535436896, 10000000000000000, [1, 1, 1, 0, 0]⟩],
  [⟨9185586535436896, 10000000000000000, [1, 1, 0, 1, 0]⟩],
  [⟨9185586535436896, 10000000000000000, [1, 0, 1, 1, 0]⟩],
  [⟨9185586535436896, 10000000000000000, [0, 1, 1, 1, 0]⟩],
  [⟨9185586535436896, 10000000000000000, [1, 1, 0, 0, 1]⟩],
  [⟨9185586535436896, 10000000000000000, [1, 0, 1, 0, 1]⟩],
  [⟨9185586535436896, 10000000000000000, [0, 1, 1, 0, 1]⟩],
  [⟨9185586535436896, 10000000000000000, [1, 0, 0, 1, 1]⟩],
  [⟨9185586535436896, 10000000000000000, [0, 1, 0, 1, 1]⟩],
  [⟨9185586535436896, 10000000000000000, [0, 0, 1, 1, 1]⟩],
  [⟨-3423265984407291, 10000000000000000, [0, 1, 0, 0, 0]⟩, ⟨1026979795322187, 1000000000000000, [2, 1, 0, 0, 0]⟩],
  [⟨-3423265984407291, 10000000000000000, [1, 0, 0, 0, 0]⟩, ⟨1026979795322187, 1000000000000000, [1, 2, 0, 0, 0]⟩],
  [⟨-3423265984407291, 10000000000000000, [0, 0, 1, 0, 0]⟩, ⟨1026979795322187, 1000000000000000, [2, 0, 1, 0, 0]⟩],
  [⟨-3423265984407291, 10000000000000000, [0, 0, 1, 0, 0]⟩, ⟨1026979795322187, 1000000000000000, [0, 2, 1, 0, 0]⟩],
  [⟨-3423265984407291, 10000000000000000, [1, 0, 0, 0, 0]⟩, ⟨1026979795322187, 1000000000000000, [1, 0, 2, 0, 0]⟩],
  [⟨-3423265984407291, 10000000000000000, [0, 1, 0, 0, 0]⟩, ⟨1026979795322187, 1000000000000000, [0, 1, 2, 0, 0]⟩],
  [⟨-3423265984407291, 10000000000000000, [0, 0, 0, 1, 0]⟩, ⟨1026979795322187, 1000000000000000, [2, 0, 0, 1, 0]⟩],
  [⟨-3423265984407291, 10000000000000000, [0, 0, 0, 1, 0]⟩, ⟨1026979795322187, 1000000000000000, [0, 2, 0, 1, 0]⟩],
  [⟨-3423265984407291, 10000000000000000, [0, 0, 0, 1, 0]⟩, ⟨1026979795322187, 1000000000000000, [0, 0, 2, 1, 0]⟩],
  [⟨-3423265984407291, 10000000000000000, [1, 0, 0, 0, 0]⟩, ⟨1026979795322187, 1000000000000000, [1, 0, 0, 2, 0]⟩],
  [⟨-3423265984407291, 10000000000000000, [0, 1, 0, 0, 0]⟩, ⟨1026979795322187, 1000000000000000, [0, 1, 0, 2, 0]⟩],
  [⟨-3423265984407291, 10000000000000000, [0, 0, 1, 0, 0]⟩, ⟨1026979795322187, 1000000000000000, [0, 0, 1, 2, 0]⟩],
  [⟨-3423265984407291, 10000000000000000, [0, 0, 0, 0, 1]⟩, ⟨1026979795322187, 1000000000000000, [2, 0, 0, 0, 1]⟩],
  [⟨-3423265984407291, 10000000000000000, [0, 0, 0, 0, 1]⟩, ⟨1026979795322187, 1000000000000000, [0, 2, 0, 0, 1]⟩],
  [⟨-3423265984407291, 10000000000000000, [0, 0, 0, 0, 1]⟩, ⟨1026979795322187, 1000000000000000, [0, 0, 2, 0, 1]⟩],
  [⟨-3423265984407291, 10000000000000000, [0, 0, 0, 0, 1]⟩, ⟨1026979795322187, 1000000000000000, [0, 0, 0, 2, 1]⟩],
  [⟨-3423265984407291, 10000000000000000, [1, 0, 0, 0, 0]⟩, ⟨1026979795322187, 1000000000000000, [1, 0, 0, 0, 2]⟩],
  [⟨-3423265984407291, 10000000000000000, [0, 1, 0, 0, 0]⟩, ⟨1026979795322187, 1000000000000000, [0, 1, 0, 0, 2]⟩],
  [⟨-3423265984407291, 10000000000000000, [0, 0, 1, 0, 0]⟩, ⟨1026979795322187, 1000000000000000, [0, 0, 1, 0, 2]⟩],
  [⟨-3423265984407291, 10000000000000000, [0, 0, 0, 1, 0]⟩, ⟨1026979795322187, 1000000000000000, [0, 0, 0, 1, 2]⟩],
  [⟨-701560760020114, 1000000000000000, [1, 0, 0, 0, 0]⟩, ⟨1169267933366857, 1000000000000000, [3, 0, 0, 0, 0]⟩],
  [⟨-701560760020114, 1000000000000000, [0, 1, 0, 0, 0]⟩, ⟨1169267933366857, 1000000000000000, [0, 3, 0, 0, 0]⟩],
  [⟨-701560760020114, 1000000000000000, [0, 0, 1, 0, 0]⟩, ⟨1169267933366857, 1000000000000000, [0, 0, 3, 0, 0]⟩],
  [⟨-701560760020114, 1000000000000000, [0, 0, 0, 1, 0]⟩, ⟨1169267933366857, 1000000000000000, [0, 0, 0, 3, 0]⟩],
  [⟨-701560760020114, 1000000000000000, [0, 0, 0, 0, 1]⟩, ⟨1169267933366857, 1000000000000000, [0, 0, 0, 0, 3]⟩],
  [⟨1590990257669732, 1000000000000000, [1, 1, 1, 1, 0]⟩],
  [⟨1590990257669732, 1000000000000000, [1, 1, 1, 0, 1]⟩],
  [⟨1590990257669732, 1000000000000000, [1, 1, 0, 1, 1]⟩],
  [⟨1590990257669732, 1000000000000000, [1, 0, 1, 1, 1]⟩],
  [⟨1590990257669732, 1000000000000000, [0, 1, 1, 1, 1]⟩],
  [⟨-5929270612815707, 10000000000000000, [0, 1, 1, 0, 0]⟩, ⟨1778781183844712, 1000000000000000, [2, 1, 1, 0, 0]⟩],
  [⟨-5929270612815707, 10000000000000000, [1, 0, 1, 0, 0]⟩, ⟨1778781183844712, 1000000000000000, [1, 2, 1, 0, 0]⟩],
  [⟨-5929270612815707, 10000000000000000, [1, 1, 0, 0, 0]⟩, ⟨1778781183844712, 1000000000000000, [1, 1, 2, 0, 0]⟩],
  [⟨-5929270612815707, 10000000000000000, [0, 1, 0, 1, 0]⟩, ⟨1778781183844712, 1000000000000000, [2, 1, 0, 1, 0]⟩],
  [⟨-5929270612815707, 10000000000000000, [1, 0, 0, 1, 0]⟩, ⟨1778781183844712, 1000000000000000, [1, 2, 0, 1, 0]⟩],
  [⟨-5929270612815707, 10000000000000000, [0, 0, 1, 1, 0]⟩, ⟨1778781183844712, 1000000000000000, [2, 0, 1, 1, 0]⟩],
  [⟨-5929270612815707, 10000000000000000, [0, 0, 1, 1, 0]⟩, ⟨1778781183844712, 1000000000000000, [0, 2, 1, 1, 0]⟩],
  [⟨-5929270612815707, 10000000000000000, [1, 0, 0, 1, 0]⟩, ⟨1778781183844712, 1000000000000000, [1, 0, 2, 1, 0]⟩],
  [⟨-5929270612815707, 10000000000000000, [0, 1, 0, 1, 0]⟩, ⟨1778781183844712, 1000000000000000, [0, 1, 2, 1, 0]⟩],
  [⟨-5929270612815707, 10000000000000000, [1, 1, 0, 0, 0]⟩, ⟨1778781183844712, 1000000000000000, [1, 1, 0, 2, 0]⟩],
  [⟨-5929270612815707, 10000000000000000, [1, 0, 1, 0, 0]⟩, ⟨1778781183844712, 1000000000000000, [1, 0, 1, 2, 0]⟩],
  [⟨-5929270612815707, 10000000000000000, [0, 1, 1, 0, 0]⟩, ⟨1778781183844712, 1000000000000000, [0, 1, 1, 2, 0]⟩],
  [⟨-5929270612815707, 10000000000000000, [0, 1, 0, 0, 1]⟩, ⟨1778781183844712, 1000000000000000, [2, 1, 0, 0, 1]⟩],
  [⟨-5929270612815707, 10000000000000000, [1, 0, 0, 0, 1]⟩, ⟨1778781183844712, 1000000000000000, [1, 2, 0, 0, 1]⟩],
  [⟨-5929270612815707, 10000000000000000, [0, 0, 1, 0, 1]⟩, ⟨1778781183844712, 1000000000000000, [2, 0, 1, 0, 1]⟩],
  [⟨-5929270612815707, 10000000000000000, [0, 0, 1, 0, 1]⟩, ⟨1778781183844712, 1000000000000000, [0, 2, 1, 0, 1]⟩],
  [⟨-5929270612815707, 10000000000000000, [1, 0, 0, 0, 1]⟩, ⟨1778781183844712, 1000000000000000, [1, 0, 2, 0, 1]⟩],
  [⟨-5929270612815707, 10000000000000000, [0, 1, 0, 0, 1]⟩, ⟨1778781183844712, 1000000000000000, [0, 1, 2, 0, 1]⟩],
  [⟨-5929270612815707, 10000000000000000, [0, 0, 0, 1, 1]⟩, ⟨1778781183844712, 1000000000000000, [2, 0, 0, 1, 1]⟩],
  [⟨-5929270612815707, 10000000000000000, [0, 0, 0, 1, 1]⟩, ⟨1778781183844712, 1000000000000000, [0, 2, 0, 1, 1]⟩],
  [⟨-5929270612815707, 10000000000000000, [0, 0, 0, 1, 1]⟩, ⟨1778781183844712, 1000000000000000, [0, 0, 2, 1, 1]⟩],
  [⟨-5929270612815707, 10000000000000000, [1, 0, 0, 0, 1]⟩, ⟨1778781183844712, 1000000000000000, [1, 0, 0, 2, 1]⟩],
  [⟨-5929270612815707, 10000000000000000, [0, 1, 0, 0, 1]⟩, ⟨1778781183844712, 1000000000000000, [0, 1, 0, 2, 1]⟩],
  [⟨-5929270612815707, 10000000000000000, [0, 0, 1, 0, 1]⟩, ⟨1778781183844712, 1000000000000000, [0, 0, 1, 2, 1]⟩],
  [⟨-5929270612815707, 10000000000000000, [1, 1, 0, 0, 0]⟩, ⟨1778781183844712, 1000000000000000, [1, 1, 0, 0, 2]⟩],
  [⟨-5929270612815707, 10000000000000000, [1, 0, 1, 0, 0]⟩, ⟨1778781183844712, 1000000000000000, [1, 0, 1, 0, 2]⟩],
  [⟨-5929270612815707, 10000000000000000, [0, 1, 1, 0, 0]⟩, ⟨1778781183844712, 1000000000000000, [0, 1, 1, 0, 2]⟩],
  [⟨-5929270612815707, 10000000000000000, [1, 0, 0, 1, 0]⟩, ⟨1778781183844712, 1000000000000000, [1, 0, 0, 1, 2]⟩],
  [⟨-5929270612815707, 10000000000000000, [0, 1, 0, 1, 0]⟩, ⟨1778781183844712, 1000000000000000, [0, 1, 0, 1, 2]⟩],
  [⟨-5929270612815707, 10000000000000000, [0, 0, 1, 1, 0]⟩, ⟨1778781183844712, 1000000000000000, [0, 0, 1, 1, 2]⟩],
  [⟨-1215138880951473, 1000000000000000, [1, 1, 0, 0, 0]⟩, ⟨2025231468252455, 1000000000000000, [3, 1, 0, 0, 0]⟩],
  [⟨-1215138880951473, 1000000000000000, [1, 1, 0, 0, 0]⟩, ⟨2025231468252455, 1000000000000000, [1, 3, 0, 0, 0]⟩],
  [⟨-1215138880951473, 1000000000000000, [1, 0, 1, 0, 0]⟩, ⟨2025231468252455, 1000000000000000, [3, 0, 1, 0, 0]⟩],
  [⟨-1215138880951473, 1000000000000000, [0, 1, 1, 0, 0]⟩, ⟨2025231468252455, 1000000000000000, [0, 3, 1, 0, 0]⟩],
  [⟨-1215138880951473, 1000000000000000, [1, 0, 1, 0, 0]⟩, ⟨2025231468252455, 1000000000000000, [1, 0, 3, 0, 0]⟩],
  [⟨-1215138880951473, 1000000000000000, [0, 1, 1, 0, 0]⟩, ⟨2025231468252455, 1000000000000000, [0, 1, 3, 0, 0]⟩],
  [⟨-1215138880951473, 1000000000000000, [1, 0, 0, 1, 0]⟩, ⟨2025231468252455, 1000000000000000, [3, 0, 0, 1, 0]⟩],
  [⟨-1215138880951473, 1000000000000000, [0, 1, 0, 1, 0]⟩, ⟨2025231468252455, 1000000000000000, [0, 3, 0, 1, 0]⟩],
  [⟨-1215138880951473, 1000000000000000, [0, 0, 1, 1, 0]⟩, ⟨2025231468252455, 1000000000000000, [0, 0, 3, 1, 0]⟩],
  [⟨-1215138880951473, 1000000000000000, [1, 0, 0, 1, 0]⟩, ⟨2025231468252455, 1000000000000000, [1, 0, 0, 3, 0]⟩],
  [⟨-1215138880951473, 1000000000000000, [0, 1, 0, 1, 0]⟩, ⟨2025231468252455, 1000000000000000, [0, 1, 0, 3, 0]⟩],
  [⟨-1215138880951473, 1000000000000000, [0, 0, 1, 1, 0]⟩, ⟨2025231468252455, 1000000000000000, [0, 0, 1, 3, 0]⟩],
  [⟨-1215138880951473, 1000000000000000, [1, 0, 0, 0, 1]⟩, ⟨2025231468252455, 1000000000000000, [3, 0, 0, 0, 1]⟩],
  [⟨-1215138880951473, 1000000000000000, [0, 1, 0, 0, 1]⟩, ⟨2025231468252455, 1000000000000000, [0, 3, 0, 0, 1]⟩],
  [⟨-1215138880951473, 1000000000000000, [0, 0, 1, 0, 1]⟩, ⟨2025231468252455, 1000000000000000, [0, 0, 3, 0, 1]⟩],
  [⟨-1215138880951473, 1000000000000000, [0, 0, 0, 1, 1]⟩, ⟨2025231468252455, 1000000000000000, [0, 0, 0, 3, 1]⟩],
  [⟨-1215138880951473, 1000000000000000, [1, 0, 0, 0, 1]⟩, ⟨2025231468252455, 1000000000000000, [1, 0, 0, 0, 3]⟩],
  [⟨-1215138880951473, 1000000000000000, [0, 1, 0, 0, 1]⟩, ⟨2025231468252455, 1000000000000000, [0, 1, 0, 0, 3]⟩],
  [⟨-1215138880951473, 1000000000000000, [0, 0, 1, 0, 1]⟩, ⟨2025231468252455, 1000000000000000, [0, 0, 1, 0, 3]⟩],
  [⟨-1215138880951473, 1000000000000000, [0, 0, 0, 1, 1]⟩, ⟨2025231468252455, 1000000000000000, [0, 0, 0, 1, 3]⟩],
  [⟨2755675960631069, 1000000000000000, [1, 1, 1, 1, 1]⟩],
  [⟨-1026979795322186, 1000000000000000, [0, 1, 1, 1, 0]⟩, ⟨3080939385966559, 1000000000000000, [2, 1, 1, 1, 0]⟩],
  [⟨-1026979795322186, 1000000000000000, [1, 0, 1, 1, 0]⟩, ⟨3080939385966559, 1000000000000000, [1, 2, 1, 1, 0]⟩],
  [⟨-1026979795322186, 1000000000000000, [1, 1, 0, 1, 0]⟩, ⟨3080939385966559, 1000000000000000, [1, 1, 2, 1, 0]⟩],
  [⟨-1026979795322186, 1000000000000000, [1, 1, 1, 0, 0]⟩, ⟨3080939385966559, 1000000000000000, [1, 1, 1, 2, 0]⟩],
  [⟨-1026979795322186, 1000000000000000, [0, 1, 1, 0, 1]⟩, ⟨3080939385966559, 1000000000000000, [2, 1, 1, 0, 1]⟩],
  [⟨-1026979795322186, 1000000000000000, [1, 0, 1, 0, 1]⟩, ⟨3080939385966559, 1000000000000000, [1, 2, 1, 0, 1]⟩],
  [⟨-1026979795322186, 1000000000000000, [1, 1, 0, 0, 1]⟩, ⟨3080939385966559, 1000000000000000, [1, 1, 2, 0, 1]⟩],
  [⟨-1026979795322186, 1000000000000000, [0, 1, 0, 1, 1]⟩, ⟨3080939385966559, 1000000000000000, [2, 1, 0, 1, 1]⟩],
  [⟨-1026979795322186, 1000000000000000, [1, 0, 0, 1, 1]⟩, ⟨3080939385966559, 1000000000000000, [1, 2, 0, 1, 1]⟩],
  [⟨-1026979795322186, 1000000000000000, [0, 0, 1, 1, 1]⟩, ⟨3080939385966559, 1000000000000000, [2, 0, 1, 1, 1]⟩],
  [⟨-1026979795322186, 1000000000000000, [0, 0, 1, 1, 1]⟩, ⟨3080939385966559, 1000000000000000, [0, 2, 1, 1, 1]⟩],
  [⟨-1026979795322186, 1000000000000000, [1, 0, 0, 1, 1]⟩, ⟨3080939385966559, 1000000000000000, [1, 0, 2, 1, 1]⟩],
  [⟨-1026979795322186, 1000000000000000, [0, 1, 0, 1, 1]⟩, ⟨3080939385966559, 1000000000000000, [0, 1, 2, 1, 1]⟩],
  [⟨-1026979795322186, 1000000000000000, [1, 1, 0, 0, 1]⟩, ⟨3080939385966559, 1000000000000000, [1, 1, 0, 2, 1]⟩],
  [⟨-1026979795322186, 1000000000000000, [1, 0, 1, 0, 1]⟩, ⟨3080939385966559, 1000000000000000, [1, 0, 1, 2, 1]⟩],
  [⟨-1026979795322186, 1000000000000000, [0, 1, 1, 0, 1]⟩, ⟨3080939385966559, 1000000000000000, [0, 1, 1, 2, 1]⟩],
  [⟨-1026979795322186, 1000000000000000, [1, 1, 1, 0, 0]⟩, ⟨3080939385966559, 1000000000000000, [1, 1, 1, 0, 2]⟩],
  [⟨-1026979795322186, 1000000000000000, [1, 1, 0, 1, 0]⟩, ⟨3080939385966559, 1000000000000000, [1, 1, 0, 1, 2]⟩],
  [⟨-1026979795322186, 1000000000000000, [1, 0, 1, 1, 0]⟩, ⟨3080939385966559, 1000000000000000, [1, 0, 1, 1, 2]⟩],
  [⟨-1026979795322186, 1000000000000000, [0, 1, 1, 1, 0]⟩, ⟨3080939385966559, 1000000000000000, [0, 1, 1, 1, 2]⟩],
  [⟨-2104682280060341, 1000000000000000, [1, 1, 1, 0, 0]⟩, ⟨3507803800100568, 1000000000000000, [3, 1, 1, 0, 0]⟩],
  [⟨-2104682280060341, 1000000000000000, [1, 1, 1, 0, 0]⟩, ⟨3507803800100568, 1000000000000000, [1, 3, 1, 0, 0]⟩],
  [⟨-2104682280060341, 1000000000000000, [1, 1, 1, 0, 0]⟩, ⟨3507803800100568, 1000000000000000, [1, 1, 3, 0, 0]⟩],
  [⟨-2104682280060341, 1000000000000000, [1, 1, 0, 1, 0]⟩, ⟨3507803800100568, 1000000000000000, [3, 1, 0, 1, 0]⟩],
  [⟨-2104682280060341, 1000000000000000, [1, 1, 0, 1, 0]⟩, ⟨3507803800100568, 1000000000000000, [1, 3, 0, 1, 0]⟩],
  [⟨-2104682280060341, 1000000000000000, [1, 0, 1, 1, 0]⟩, ⟨3507803800100568, 1000000000000000, [3, 0, 1, 1, 0]⟩],
  [⟨-2104682280060341, 1000000000000000, [0, 1, 1, 1, 0]⟩, ⟨3507803800100568, 1000000000000000, [0, 3, 1, 1, 0]⟩],
  [⟨-2104682280060341, 1000000000000000, [1, 0, 1, 1, 0]⟩, ⟨3507803800100568, 1000000000000000, [1, 0, 3, 1, 0]⟩],
  [⟨-2104682280060341, 1000000000000000, [0, 1, 1, 1, 0]⟩, ⟨3507803800100568, 1000000000000000, [0, 1, 3, 1, 0]⟩],
  [⟨-2104682280060341, 1000000000000000, [1, 1, 0, 1, 0]⟩, ⟨3507803800100568, 1000000000000000, [1, 1, 0, 3, 0]⟩],
  [⟨-2104682280060341, 1000000000000000, [1, 0, 1, 1, 0]⟩, ⟨3507803800100568, 1000000000000000, [1, 0, 1, 3, 0]⟩],
  [⟨-2104682280060341, 1000000000000000, [0, 1, 1, 1, 0]⟩, ⟨3507803800100568, 1000000000000000, [0, 1, 1, 3, 0]⟩],
  [⟨-2104682280060341, 1000000000000000, [1, 1, 0, 0, 1]⟩, ⟨3507803800100568, 1000000000000000, [3, 1, 0, 0, 1]⟩],
  [⟨-2104682280060341, 1000000000000000, [1, 1, 0, 0, 1]⟩, ⟨3507803800100568, 1000000000000000, [1, 3, 0, 0, 1]⟩],
  [⟨-2104682280060341, 1000000000000000, [1, 0, 1, 0, 1]⟩, ⟨3507803800100568, 1000000000000000, [3, 0, 1, 0, 1]⟩],
  [⟨-2104682280060341, 1000000000000000, [0, 1, 1, 0, 1]⟩, ⟨3507803800100568, 1000000000000000, [0, 3, 1, 0, 1]⟩],
  [⟨-2104682280060341, 1000000000000000, [1, 0, 1, 0, 1]⟩, ⟨3507803800100568, 1000000000000000, [1, 0, 3, 0, 1]⟩],
  [⟨-2104682280060341, 1000000000000000, [0, 1, 1, 0, 1]⟩, ⟨3507803800100568, 1000000000000000, [0, 1, 3, 0, 1]⟩],
  [⟨-2104682280060341, 1000000000000000, [1, 0, 0, 1, 1]⟩, ⟨3507803800100568, 1000000000000000, [3, 0, 0, 1, 1]⟩],
  [⟨-2104682280060341, 1000000000000000, [0, 1, 0, 1, 1]⟩, ⟨3507803800100568, 1000000000000000, [0, 3, 0, 1, 1]⟩],
  [⟨-2104682280060341, 1000000000000000, [0, 0, 1, 1, 1]⟩, ⟨3507803800100568, 1000000000000000, [0, 0, 3, 1, 1]⟩],
  [⟨-2104682280060341, 1000000000000000, [1, 0, 0, 1, 1]⟩, ⟨3507803800100568, 1000000000000000, [1, 0, 0, 3, 1]⟩],
  [⟨-2104682280060341, 1000000000000000, [0, 1, 0, 1, 1]⟩, ⟨3507803800100568, 1000000000000000, [0, 1, 0, 3, 1]⟩],
  [⟨-2104682280060341, 1000000000000000, [0, 0, 1, 1, 1]⟩, ⟨3507803800100568, 1000000000000000, [0, 0, 1, 3, 1]⟩],
  [⟨-2104682280060341, 1000000000000000, [1, 1, 0, 0, 1]⟩, ⟨3507803800100568, 1000000000000000, [1, 1, 0, 0, 3]⟩],
  [⟨-2104682280060341, 1000000000000000, [1, 0, 1, 0, 1]⟩, ⟨3507803800100568, 1000000000000000, [1, 0, 1, 0, 3]⟩],
  [⟨-2104682280060341, 1000000000000000, [0, 1, 1, 0, 1]⟩, ⟨3507803800100568, 1000000000000000, [0, 1, 1, 0, 3]⟩],
  [⟨-2104682280060341, 1000000000000000, [1, 0, 0, 1, 1]⟩, ⟨3507803800100568, 1000000000000000, [1, 0, 0, 1, 3]⟩],
  [⟨-2104682280060341, 1000000000000000, [0, 1, 0, 1, 1]⟩, ⟨3507803800100568, 1000000000000000, [0, 1, 0, 1, 3]⟩],
  [⟨-2104682280060341, 1000000000000000, [0, 0, 1, 1, 1]⟩, ⟨3507803800100568, 1000000000000000, [0, 0, 1, 1, 3]⟩],
  [⟨-1778781183844715, 1000000000000000, [0, 1, 1, 1, 1]⟩, ⟨5336343551534144, 1000000000000000, [2, 1, 1, 1, 1]⟩],
  [⟨-1778781183844715, 1000000000000000, [1, 0, 1, 1, 1]⟩, ⟨5336343551534144, 1000000000000000, [1, 2, 1, 1, 1]⟩],
  [⟨-1778781183844715, 1000000000000000, [1, 1, 0, 1, 1]⟩, ⟨5336343551534144, 1000000000000000, [1, 1, 2, 1, 1]⟩],
  [⟨-1778781183844715, 1000000000000000, [1, 1, 1, 0, 1]⟩, ⟨5336343551534144, 1000000000000000, [1, 1, 1, 2, 1]⟩],
  [⟨-1778781183844715, 1000000000000000, [1, 1, 1, 1, 0]⟩, ⟨5336343551534144, 1000000000000000, [1, 1, 1, 1, 2]⟩],
  [⟨-364541664285442, 100000000000000, [1, 1, 1, 1, 0]⟩, ⟨6075694404757367, 1000000000000000, [3, 1, 1, 1, 0]⟩],
  [⟨-364541664285442, 100000000000000, [1, 1, 1, 1, 0]⟩, ⟨6075694404757367, 1000000000000000, [1, 3, 1, 1, 0]⟩],
  [⟨-364541664285442, 100000000000000, [1, 1, 1, 1, 0]⟩, ⟨6075694404757367, 1000000000000000, [1, 1, 3, 1, 0]⟩],
  [⟨-364541664285442, 100000000000000, [1, 1, 1, 1, 0]⟩, ⟨6075694404757367, 1000000000000000, [1, 1, 1, 3, 0]⟩],
  [⟨-364541664285442, 100000000000000, [1, 1, 1, 0, 1]⟩, ⟨6075694404757367, 1000000000000000, [3, 1, 1, 0, 1]⟩],
  [⟨-364541664285442, 100000000000000, [1, 1, 1, 0, 1]⟩, ⟨6075694404757367, 1000000000000000, [1, 3, 1, 0, 1]⟩],
  [⟨-364541664285442, 100000000000000, [1, 1, 1, 0, 1]⟩, ⟨6075694404757367, 1000000000000000, [1, 1, 3, 0, 1]⟩],
  [⟨-364541664285442, 100000000000000, [1, 1, 0, 1, 1]⟩, ⟨6075694404757367, 1000000000000000, [3, 1, 0, 1, 1]⟩],
  [⟨-364541664285442, 100000000000000, [1, 1, 0, 1, 1]⟩, ⟨6075694404757367, 1000000000000000, [1, 3, 0, 1, 1]⟩],
  [⟨-364541664285442, 100000000000000, [1, 0, 1, 1, 1]⟩, ⟨6075694404757367, 1000000000000000, [3, 0, 1, 1, 1]⟩],
  [⟨-364541664285442, 100000000000000, [0, 1, 1, 1, 1]⟩, ⟨6075694404757367, 1000000000000000, [0, 3, 1, 1, 1]⟩],
  [⟨-364541664285442, 100000000000000, [1, 0, 1, 1, 1]⟩, ⟨6075694404757367, 1000000000000000, [1, 0, 3, 1, 1]⟩],
  [⟨-364541664285442, 100000000000000, [0, 1, 1, 1, 1]⟩, ⟨6075694404757367, 1000000000000000, [0, 1, 3, 1, 1]⟩],
  [⟨-364541664285442, 100000000000000, [1, 1, 0, 1, 1]⟩, ⟨6075694404757367, 1000000000000000, [1, 1, 0, 3, 1]⟩],
  [⟨-364541664285442, 100000000000000, [1, 0, 1, 1, 1]⟩, ⟨6075694404757367, 1000000000000000, [1, 0, 1, 3, 1]⟩],
  [⟨-364541664285442, 100000000000000, [0, 1, 1, 1, 1]⟩, ⟨6075694404757367, 1000000000000000, [0, 1, 1, 3, 1]⟩],
  [⟨-364541664285442, 100000000000000, [1, 1, 1, 0, 1]⟩, ⟨6075694404757367, 1000000000000000, [1, 1, 1, 0, 3]⟩],
  [⟨-364541664285442, 100000000000000, [1, 1, 0, 1, 1]⟩, ⟨6075694404757367, 1000000000000000, [1, 1, 0, 1, 3]⟩],
  [⟨-364541664285442, 100000000000000, [1, 0, 1, 1, 1]⟩, ⟨6075694404757367, 1000000000000000, [1, 0, 1, 1, 3]⟩],
  [⟨-364541664285442, 100000000000000, [0, 1, 1, 1, 1]⟩, ⟨6075694404757367, 1000000000000000, [0, 1, 1, 1, 3]⟩],
  [⟨-6314046840181025, 1000000000000000, [1, 1, 1, 1, 1]⟩, ⟨1052341140030171, 100000000000000, [3, 1, 1, 1, 1]⟩],
  [⟨-6314046840181025, 1000000000000000, [1, 1, 1, 1, 1]⟩, ⟨1052341140030171, 100000000000000, [1, 3, 1, 1, 1]⟩],
  [⟨-6314046840181025, 1000000000000000, [1, 1, 1, 1, 1]⟩, ⟨1052341140030171, 100000000000000, [1, 1, 3, 1, 1]⟩],
  [⟨-6314046840181025, 1000000000000000, [1, 1, 1, 1, 1]⟩, ⟨1052341140030171, 100000000000000, [1, 1, 1, 3, 1]⟩],
  [⟨-6314046840181025, 1000000000000000, [1, 1, 1, 1, 1]⟩, ⟨1052341140030171, 100000000000000, [1, 1, 1, 1, 3]⟩]]

/-- computeDerivativeMatrices.py:5518-6683. -/
def modalSer5p4 : List Poly := [
  [⟨1767766952966367, 10000000000000000, [0, 0, 0, 0, 0]⟩],
  [⟨3061862178478966, 10000000000000000, [1, 0, 0, 0, 0]⟩],
  [⟨3061862178478966, 10000000000000000, [0, 1, 0, 0, 0]⟩],
  [⟨3061862178478966, 10000000000000000, [0, 0, 1, 0, 0]⟩],
  [⟨3061862178478966, 10000000000000000, [0, 0, 0, 1, 0]⟩],
  [⟨3061862178478966, 10000000000000000, [0, 0, 0, 0, 1]⟩],
  [⟨5303300858899102, 10000000000000000, [1, 1, 0, 0, 0]⟩],
  [⟨5303300858899102, 10000000000000000, [1, 0, 1, 0, 0]⟩],
  [⟨5303300858899102, 10000000000000000, [0, 1, 1, 0, 0]⟩],
  [⟨5303300858899102, 10000000000000000, [1, 0, 0, 1, 0]⟩],
  [⟨5303300858899102, 10000000000000000, [0, 1, 0, 1, 0]⟩],
  [⟨5303300858899102, 10000000000000000, [0, 0, 1, 1, 0]⟩],
  [⟨5303300858899102, 10000000000000000, [1, 0, 0, 0, 1]⟩],
  [⟨5303300858899102, 10000000000000000, [0, 1, 0, 0, 1]⟩],
  [⟨5303300858899102, 10000000000000000, [0, 0, 1, 0, 1]⟩],
  [⟨5303300858899102, 10000000000000000, [0, 0, 0, 1, 1]⟩],
  [⟨-1976423537605237, 10000000000000000, [0, 0, 0, 0, 0]⟩, ⟨592927061281571, 1000000000000000, [2, 0, 0, 0, 0]⟩],
  [⟨-1976423537605237, 10000000000000000, [0, 0, 0, 0, 0]⟩, ⟨592927061281571, 1000000000000000, [0, 2, 0, 0, 0]⟩],
  [⟨-1976423537605237, 10000000000000000, [0, 0, 0, 0, 0]⟩, ⟨592927061281571, 1000000000000000, [0, 0, 2, 0, 0]⟩],
  [⟨-1976423537605237, 10000000000000000, [0, 0, 0, 0, 0]⟩, ⟨592927061281571, 1000000000000000, [0, 0, 0, 2, 0]⟩],
  [⟨-1976423537605237, 10000000000000000, [0, 0, 0, 0, 0]⟩, ⟨592927061281571, 1000000000000000, [0, 0, 0, 0, 2]⟩],
  [⟨9185586535436896, 10000000000000000, [1, 1, 1, 0, 0]⟩],
  [⟨9185586535436896, 10000000000000000, [1, 1, 0, 1, 0]⟩],
  [⟨9185586535436896, 10000000000000000, [1, 0, 1, 1, 0]⟩],
  [⟨9185586535436896, 10000000000000000, [0, 1, 1, 1, 0]⟩],
  [⟨9185586535436896, 10000000000000000, [1, 1, 0, 0, 1]⟩],
  [⟨9185586535436896, 10000000000000000, [1, 0, 1, 0, 1]⟩],
  [⟨9185586535436896, 10000000000000000, [0, 1, 1, 0, 1]⟩],
  [⟨9185586535436896, 10000000000000000, [1, 0, 0, 1, 1]⟩],
  [⟨9185586535436896, 10000000000000000, [0, 1, 0, 1, 1]⟩],
  [⟨9185586535436896, 10000000000000000, [0, 0, 1, 1, 1]⟩],
  [⟨-3423265984407291, 10000000000000000, [0, 1, 0, 0, 0]⟩, ⟨1026979795322187, 1000000000000000, [2, 1, 0, 0, 0]⟩],
  [⟨-3423265984407291, 10000000000000000, [1, 0, 0, 0, 0]⟩, ⟨1026979795322187, 1000000000000000, [1, 2, 0, 0, 0]⟩],
  [⟨-3423265984407291, 10000000000000000, [0, 0, 1, 0, 0]⟩, ⟨1026979795322187, 1000000000000000, [2, 0, 1, 0, 0]⟩],
  [⟨-3423265984407291, 10000000000000000, [0, 0, 1, 0, 0]⟩, ⟨1026979795322187, 1000000000000000, [0, 2, 1, 0, 0]⟩],
  [⟨-3423265984407291, 10000000000000000, [1, 0, 0, 0, 0]⟩, ⟨1026979795322187, 1000000000000000, [1, 0, 2, 0, 0]⟩],
  [⟨-3423265984407291, 10000000000000000, [0, 1, 0, 0, 0]⟩, ⟨1026979795322187, 1000000000000000, [0, 1, 2, 0, 0]⟩],
  [⟨-3423265984407291, 10000000000000000, [0, 0, 0, 1, 0]⟩, ⟨1026979795322187, 1000000000000000, [2, 0, 0, 1, 0]⟩],
  [⟨-3423265984407291, 10000000000000000, [0, 0, 0, 1, 0]⟩, ⟨1026979795322187, 1000000000000000, [0, 2, 0, 1, 0]⟩],
  [⟨-3423265984407291, 10000000000000000, [0, 0, 0, 1, 0]⟩, ⟨1026979795322187, 1000000000000000, [0, 0, 2, 1, 0]⟩],
  [⟨-3423265984407291, 10000000000000000, [1, 0, 0, 0, 0]⟩, ⟨1026979795322187, 1000000000000000, [1, 0, 0, 2, 0]⟩],
  [⟨-3423265984407291, 10000000000000000, [0, 1, 0, 0, 0]⟩, ⟨1026979795322187, 1000000000000000, [0, 1, 0, 2, 0]⟩],
  [⟨-3423265984407291, 10000000000000000, [0, 0, 1, 0, 0]⟩, ⟨1026979795322187, 1000000000000000, [0, 0, 1, 2, 0]⟩],
  [⟨-3423265984407291, 10000000000000000, [0, 0, 0, 0, 1]⟩, ⟨1026979795322187, 1000000000000000, [2, 0, 0, 0, 1]⟩],
  [⟨-3423265984407291, 10000000000000000, [0, 0, 0, 0, 1]⟩, ⟨1026979795322187, 1000000000000000, [0, 2, 0, 0, 1]⟩],
  [⟨-3423265984407291, 10000000000000000, [0, 0, 0, 0, 1]⟩, ⟨1026979795322187, 1000000000000000, [0, 0, 2, 0, 1]⟩],
  [⟨-3423265984407291, 10000000000000000, [0, 0, 0, 0, 1]⟩, ⟨1026979795322187, 1000000000000000, [0, 0, 0, 2, 1]⟩],
  [⟨-3423265984407291, 10000000000000000, [1, 0, 0, 0, 0]⟩, ⟨1026979795322187, 1000000000000000, [1, 0, 0, 0, 2]⟩],
  [⟨-3423265984407291, 10000000000000000, [0, 1, 0, 0, 0]⟩, ⟨1026979795322187, 1000000000000000, [0, 1, 0, 0, 2]⟩],
  [⟨-3423265984407291, 10000000000000000, [0, 0, 1, 0, 0]⟩, ⟨1026979795322187, 1000000000000000, [0, 0, 1, 0, 2]⟩],
  [⟨-3423265984407291, 10000000000000000, [0, 0, 0, 1, 0]⟩, ⟨1026979795322187, 1000000000000000, [0, 0, 0, 1, 2]⟩],
  [⟨-701560760020114, 1000000000000000, [1, 0, 0, 0, 0]⟩, ⟨1169267933366857, 1000000000000000, [3, 0, 0, 0, 0]⟩],
  [⟨-701560760020114, 1000000000000000, [0, 1, 0, 0, 0]⟩, ⟨1169267933366857, 1000000000000000, [0, 3, 0, 0, 0]⟩],
  [⟨-701560760020114, 1000000000000000, [0, 0, 1, 0, 0]⟩, ⟨1169267933366857, 1000000000000000, [0, 0, 3, 0, 0]⟩],
  [⟨-701560760020114, 1000000000000000, [0, 0, 0, 1, 0]⟩, ⟨1169267933366857, 1000000000000000, [0, 0, 0, 3, 0]⟩],
  [⟨-701560760020114, 1000000000000000, [0, 0, 0, 0, 1]⟩, ⟨1169267933366857, 1000000000000000, [0, 0, 0, 0, 3]⟩],
  [⟨1590990257669732, 1000000000000000, [1, 1, 1, 1, 0]⟩],
  [⟨1590990257669732, 1000000000000000, [1, 1, 1, 0, 1]⟩],
  [⟨1590990257669732, 1000000000000000, [1, 1, 0, 1, 1]⟩],
  [⟨1590990257669732, 1000000000000000, [1, 0, 1, 1, 1]⟩],
  [⟨1590990257669732, 1000000000000000, [0, 1, 1, 1, 1]⟩],
  [⟨-5929270612815707, 10000000000000000, [0, 1, 1, 0, 0]⟩, ⟨1778781183844712, 1000000000000000, [2, 1, 1, 0, 0]⟩],
  [⟨-5929270612815707, 10000000000000000, [1, 0, 1, 0, 0]⟩, ⟨1778781183844712, 1000000000000000, [1, 2, 1, 0, 0]⟩],
  [⟨-5929270612815707, 10000000000000000, [1, 1, 0, 0, 0]⟩, ⟨1778781183844712, 1000000000000000, [1, 1, 2, 0, 0]⟩],
  [⟨-5929270612815707, 10000000000000000, [0, 1, 0, 1, 0]⟩, ⟨1778781183844712, 1000000000000000, [2, 1, 0, 1, 0]⟩],
  [⟨-5929270612815707, 10000000000000000, [1, 0, 0, 1, 0]⟩, ⟨1778781183844712, 1000000000000000, [1, 2, 0, 1, 0]⟩],
  [⟨-5929270612815707, 10000000000000000, [0, 0, 1, 1, 0]⟩, ⟨1778781183844712, 1000000000000000, [2, 0, 1, 1, 0]⟩],
  [⟨-5929270612815707, 10000000000000000, [0, 0, 1, 1, 0]⟩, ⟨1778781183844712, 1000000000000000, [0, 2, 1, 1, 0]⟩],
  [⟨-5929270612815707, 10000000000000000, [1, 0, 0, 1, 0]⟩, ⟨1778781183844712, 1000000000000000, [1, 0, 2, 1, 0]⟩],
  [⟨-5929270612815707, 10000000000000000, [0, 1, 0, 1, 0]⟩, ⟨1778781183844712, 1000000000000000, [0, 1, 2, 1, 0]⟩],
  [⟨-5929270612815707, 10000000000000000, [1, 1, 0, 0, 0]⟩, ⟨1778781183844712, 1000000000000000, [1, 1, 0, 2, 0]⟩],
  [⟨-5929270612815707, 10000000000000000, [1, 0, 1, 0, 0]⟩, ⟨1778781183844712, 1000000000000000, [1, 0, 1, 2, 0]⟩],
  [⟨-5929270612815707, 10000000000000000, [0, 1, 1, 0, 0]⟩, ⟨1778781183844712, 1000000000000000, [0, 1, 1, 2, 0]⟩],
  [⟨-5929270612815707, 10000000000000000, [0, 1, 0, 0, 1]⟩, ⟨1778781183844712, 1000000000000000, [2, 1, 0, 0, 1]⟩],
  [⟨-5929270612815707, 10000000000000000, [1, 0, 0, 0, 1]⟩, ⟨1778781183844712, 1000000000000000, [1, 2, 0, 0, 1]⟩],
  [⟨-5929270612815707, 10000000000000000, [0, 0, 1, 0, 1]⟩, ⟨1778781183844712, 1000000000000000, [2, 0, 1, 0, 1]⟩],
  [⟨-5929270612815707, 10000000000000000, [0, 0, 1, 0, 1]⟩, ⟨1778781183844712, 1000000000000000, [0, 2, 1, 0, 1]⟩],
  [⟨-5929270612815707, 10000000000000000, [1, 0, 0, 0, 1]⟩, ⟨1778781183844712, 1000000000000000, [1, 0, 2, 0, 1]⟩],
  [⟨-5929270612815707, 10000000000000000, [0, 1, 0, 0, 1]⟩, ⟨1778781183844712, 1000000000000000, [0, 1, 2, 0, 1]⟩],
  [⟨-5929270612815707, 10000000000000000, [0, 0, 0, 1, 1]⟩, ⟨1778781183844712, 1000000000000000, [2, 0, 0, 1, 1]⟩],
  [⟨-5929270612815707, 10000000000000000, [0, 0, 0, 1, 1]⟩, ⟨1778781183844712, 1000000000000000, [0, 2, 0, 1, 1]⟩],
  [⟨-5929270612815707, 10000000000000000, [0, 0, 0, 1, 1]⟩, ⟨1778781183844712, 1000000000000000, [0, 0, 2, 1, 1]⟩],
  [⟨-5929270612815707, 10000000000000000, [1, 0, 0, 0, 1]⟩, ⟨1778781183844712, 1000000000000000, [1, 0, 0, 2, 1]⟩],
  [⟨-5929270612815707, 10000000000000000, [0, 1, 0, 0, 1]⟩, ⟨1778781183844712, 1000000000000000, [0, 1, 0, 2, 1]⟩],
  [⟨-5929270612815707, 10000000000000000, [0, 0, 1, 0, 1]⟩, ⟨1778781183844712, 1000000000000000, [0, 0, 1, 2, 1]⟩],
  [⟨-5929270612815707, 10000000000000000, [1, 1, 0, 0, 0]⟩, ⟨1778781183844712, 1000000000000000, [1, 1, 0, 0, 2]⟩],
  [⟨-5929270612815707, 10000000000000000, [1, 0, 1, 0, 0]⟩, ⟨1778781183844712, 1000000000000000, [1, 0, 1, 0, 2]⟩],
  [⟨-5929270612815707, 10000000000000000, [0, 1, 1, 0, 0]⟩, ⟨1778781183844712, 1000000000000000, [0, 1, 1, 0, 2]⟩],
  [⟨-5929270612815707, 10000000000000000, [1, 0, 0, 1, 0]⟩, ⟨1778781183844712, 1000000000000000, [1, 0, 0, 1, 2]⟩],
  [⟨-5929270612815707, 10000000000000000, [0, 1, 0, 1, 0]⟩, ⟨1778781183844712, 1000000000000000, [0, 1, 0, 1, 2]⟩],
  [⟨-5929270612815707, 10000000000000000, [0, 0, 1, 1, 0]⟩, ⟨1778781183844712, 1000000000000000, [0, 0, 1, 1, 2]⟩],
  [⟨2209708691207962, 10000000000000000, [0, 0, 0, 0, 0]⟩, ⟨-6629126073623886, 10000000000000000, [0, 2, 0, 0, 0]⟩, ⟨-6629126073623886, 10000000000000000, [2, 0, 0, 0, 0]⟩, ⟨1988737822087165, 1000000000000000, [2, 2, 0, 0, 0]⟩],
  [⟨2209708691207962, 10000000000000000, [0, 0, 0, 0, 0]⟩, ⟨-6629126073623886, 10000000000000000, [0, 0, 2, 0, 0]⟩, ⟨-6629126073623886, 10000000000000000, [2, 0, 0, 0, 0]⟩, ⟨1988737822087165, 1000000000000000, [2, 0, 2, 0, 0]⟩],
  [⟨2209708691207962, 10000000000000000, [0, 0, 0, 0, 0]⟩, ⟨-6629126073623886, 10000000000000000, [0, 0, 2, 0, 0]⟩, ⟨-6629126073623886, 10000000000000000, [0, 2, 0, 0, 0]⟩, ⟨1988737822087165, 1000000000000000, [0, 2, 2, 0, 0]⟩],
  [⟨2209708691207962, 10000000000000000, [0, 0, 0, 0, 0]⟩, ⟨-6629126073623886, 10000000000000000, [0, 0, 0, 2, 0]⟩, ⟨-6629126073623886, 10000000000000000, [2, 0, 0, 0, 0]⟩, ⟨1988737822087165, 1000000000000000, [2, 0, 0, 2, 0]⟩],
  [⟨2209708691207962, 10000000000000000, [0, 0, 0, 0, 0]⟩, ⟨-6629126073623886, 10000000000000000, [0, 0, 0, 2, 0]⟩, ⟨-6629126073623886, 10000000000000000, [0, 2, 0, 0, 0]⟩, ⟨1988737822087165, 1000000000000000, [0, 2, 0, 2, 0]⟩],
  [⟨2209708691207962, 10000000000000000, [0, 0, 0, 0, 0]⟩, ⟨-6629126073623886, 10000000000000000, [0, 0, 0, 2, 0]⟩, ⟨-6629126073623886, 10000000000000000, [0, 0, 2, 0, 0]⟩, ⟨1988737822087165, 1000000000000000, [0, 0, 2, 2, 0]⟩],
  [⟨2209708691207962, 10000000000000000, [0, 0, 0, 0, 0]⟩, ⟨-6629126073623886, 10000000000000000, [0, 0, 0, 0, 2]⟩, ⟨-6629126073623886, 10000000000000000, [2, 0, 0, 0, 0]⟩, ⟨1988737822087165, 1000000000000000, [2, 0, 0, 0, 2]⟩],
  [⟨2209708691207962, 10000000000000000, [0, 0, 0, 0, 0]⟩, ⟨-6629126073623886, 10000000000000000, [0, 0, 0, 0, 2]⟩, ⟨-6629126073623886, 10000000000000000, [0, 2, 0, 0, 0]⟩, ⟨1988737822087165, 1000000000000000, [0, 2, 0, 0, 2]⟩],
  [⟨2209708691207962, 10000000000000000, [0, 0, 0, 0, 0]⟩, ⟨-6629126073623886, 10000000000000000, [0, 0, 0, 0, 2]⟩, ⟨-6629126073623886, 10000000000000000, [0, 0, 2, 0, 0]⟩, ⟨1988737822087165, 1000000000000000, [0, 0, 2, 0, 2]⟩],
  [⟨2209708691207962, 10000000000000000, [0, 0, 0, 0, 0]⟩, ⟨-6629126073623886, 10000000000000000, [0, 0, 0, 0, 2]⟩, ⟨-6629126073623886, 10000000000000000, [0, 0, 0, 2, 0]⟩, ⟨1988737822087165, 1000000000000000, [0, 0, 0, 2, 2]⟩],
  [⟨-1215138880951473, 1000000000000000, [1, 1, 0, 0, 0]⟩, ⟨2025231468252455, 1000000000000000, [3, 1, 0, 0, 0]⟩],
  [⟨-1215138880951473, 1000000000000000, [1, 1, 0, 0, 0]⟩, ⟨2025231468252455, 1000000000000000, [1, 3, 0, 0, 0]⟩],
  [⟨-1215138880951473, 1000000000000000, [1, 0, 1, 0, 0]⟩, ⟨2025231468252455, 1000000000000000, [3, 0, 1, 0, 0]⟩],
  [⟨-1215138880951473, 1000000000000000, [0, 1, 1, 0, 0]⟩, ⟨2025231468252455, 1000000000000000, [0, 3, 1, 0, 0]⟩],
  [⟨-1215138880951473, 1000000000000000, [1, 0, 1, 0, 0]⟩, ⟨2025231468252455, 1000000000000000, [1, 0, 3, 0, 0]⟩],
  [⟨-1215138880951473, 1000000000000000, [0, 1, 1, 0, 0]⟩, ⟨2025231468252455, 1000000000000000, [0, 1, 3, 0, 0]⟩],
  [⟨-1215138880951473, 1000000000000000, [1, 0, 0, 1, 0]⟩, ⟨2025231468252455, 1000000000000000, [3, 0, 0, 1, 0]⟩],
  [⟨-1215138880951473, 1000000000000000, [0, 1, 0, 1, 0]⟩, ⟨2025231468252455, 1000000000000000, [0, 3, 0, 1, 0]⟩],
  [⟨-1215138880951473, 1000000000000000, [0, 0, 1, 1, 0]⟩, ⟨2025231468252455, 1000000000000000, [0, 0, 3, 1, 0]⟩],
  [⟨-1215138880951473, 1000000000000000, [1, 0, 0, 1, 0]⟩, ⟨2025231468252455, 1000000000000000, [1, 0, 0, 3, 0]⟩],
  [⟨-1215138880951473, 1000000000000000, [0, 1, 0, 1, 0]⟩, ⟨2025231468252455, 1000000000000000, [0, 1, 0, 3, 0]⟩],
  [⟨-1215138880951473, 1000000000000000, [0, 0, 1, 1, 0]⟩, ⟨2025231468252455, 1000000000000000, [0, 0, 1, 3, 0]⟩],
  [⟨-1215138880951473, 1000000000000000, [1, 0, 0, 0, 1]⟩, ⟨2025231468252455, 1000000000000000, [3, 0, 0, 0, 1]⟩],
  [⟨-1215138880951473, 1000000000000000, [0, 1, 0, 0, 1]⟩, ⟨2025231468252455, 1000000000000000, [0, 3, 0, 0, 1]⟩],
  [⟨-1215138880951473, 1000000000000000, [0, 0, 1, 0, 1]⟩, ⟨2025231468252455, 1000000000000000, [0, 0, 3, 0, 1]⟩],
  [⟨-1215138880951473, 1000000000000000, [0, 0, 0, 1, 1]⟩, ⟨2025231468252455, 1000000000000000, [0, 0, 0, 3, 1]⟩],
  [⟨-1215138880951473, 1000000000000000, [1, 0, 0, 0, 1]⟩, ⟨2025231468252455, 1000000000000000, [1, 0, 0, 0, 3]⟩],
  [⟨-1215138880951473, 1000000000000000, [0, 1, 0, 0, 1]⟩, ⟨2025231468252455, 1000000000000000, [0, 1, 0, 0, 3]⟩],
  [⟨-1215138880951473, 1000000000000000, [0, 0, 1, 0, 1]⟩, ⟨2025231468252455, 1000000000000000, [0, 0, 1, 0, 3]⟩],
  [⟨-1215138880951473, 1000000000000000, [0, 0, 0, 1, 1]⟩, ⟨2025231468252455, 1000000000000000, [0, 0, 0, 1, 3]⟩],
  [⟨1988737822087163, 10000000000000000, [0, 0, 0, 0, 0]⟩, ⟨-1988737822087163, 1000000000000000, [2, 0, 0, 0, 0]⟩, ⟨2320194125768356, 1000000000000000, [4, 0, 0, 0, 0]⟩],
  [⟨1988737822087163, 10000000000000000, [0, 0, 0, 0, 0]⟩, ⟨-1988737822087163, 1000000000000000, [0, 2, 0, 0, 0]⟩, ⟨2320194125768356, 1000000000000000, [0, 4, 0, 0, 0]⟩],
  [⟨1988737822087163, 10000000000000000, [0, 0, 0, 0, 0]⟩, ⟨-1988737822087163, 1000000000000000, [0, 0, 2, 0, 0]⟩, ⟨2320194125768356, 1000000000000000, [0, 0, 4, 0, 0]⟩],
  [⟨1988737822087163, 10000000000000000, [0, 0, 0, 0, 0]⟩, ⟨-1988737822087163, 1000000000000000, [0, 0, 0, 2, 0]⟩, ⟨2320194125768356, 1000000000000000, [0, 0, 0, 4, 0]⟩],
  [⟨1988737822087163, 10000000000000000, [0, 0, 0, 0, 0]⟩, ⟨-1988737822087163, 1000000000000000, [0, 0, 0, 0, 2]⟩, ⟨2320194125768356, 1000000000000000, [0, 0, 0, 0, 4]⟩],
  [⟨2755675960631069, 1000000000000000, [1, 1, 1, 1, 1]⟩],
  [⟨-1026979795322186, 1000000000000000, [0, 1, 1, 1, 0]⟩, ⟨3080939385966559, 1000000000000000, [2, 1, 1, 1, 0]⟩],
  [⟨-1026979795322186, 1000000000000000, [1, 0, 1, 1, 0]⟩, ⟨3080939385966559, 1000000000000000, [1, 2, 1, 1, 0]⟩],
  [⟨-1026979795322186, 1000000000000000, [1, 1, 0, 1, 0]⟩, ⟨3080939385966559, 1000000000000000, [1, 1, 2, 1, 0]⟩],
  [⟨-1026979795322186, 1000000000000000, [1, 1, 1, 0, 0]⟩, ⟨3080939385966559, 1000000000000000, [1, 1, 1, 2, 0]⟩],
  [⟨-1026979795322186, 1000000000000000, [0, 1, 1, 0, 1]⟩, ⟨3080939385966559, 1000000000000000, [2, 1, 1, 0, 1]⟩],
  [⟨-1026979795322186, 1000000000000000, [1, 0, 1, 0, 1]⟩, ⟨3080939385966559, 1000000000000000, [1, 2, 1, 0, 1]⟩],
  [⟨-1026979795322186, 1000000000000000, [1, 1, 0, 0, 1]⟩, ⟨3080939385966559, 1000000000000000, [1, 1, 2, 0, 1]⟩],
  [⟨-1026979795322186, 1000000000000000, [0, 1, 0, 1, 1]⟩, ⟨3080939385966559, 1000000000000000, [2, 1, 0, 1, 1]⟩],
  [⟨-1026979795322186, 1000000000000000, [1, 0, 0, 1, 1]⟩, ⟨3080939385966559, 1000000000000000, [1, 2, 0, 1, 1]⟩],
  [⟨-1026979795322186, 1000000000000000, [0, 0, 1, 1, 1]⟩, ⟨3080939385966559, 1000000000000000, [2, 0, 1, 1, 1]⟩],
  [⟨-1026979795322186, 1000000000000000, [0, 0, 1, 1, 1]⟩, ⟨3080939385966559, 1000000000000000, [0, 2, 1, 1, 1]⟩],
  [⟨-1026979795322186, 1000000000000000, [1, 0, 0, 1, 1]⟩, ⟨3080939385966559, 1000000000000000, [1, 0, 2, 1, 1]⟩],
  [⟨-1026979795322186, 1000000000000000, [0, 1, 0, 1, 1]⟩, ⟨3080939385966559, 1000000000000000, [0, 1, 2, 1, 1]⟩],
  [⟨-1026979795322186, 1000000000000000, [1, 1, 0, 0, 1]⟩, ⟨3080939385966559, 1000000000000000, [1, 1, 0, 2, 1]⟩],
  [⟨-1026979795322186, 1000000000000000, [1, 0, 1, 0, 1]⟩, ⟨3080939385966559, 1000000000000000, [1, 0, 1, 2, 1]⟩],
  [⟨-1026979795322186, 1000000000000000, [0, 1, 1, 0, 1]⟩, ⟨3080939385966559, 1000000000000000, [0, 1, 1, 2, 1]⟩],
  [⟨-1026979795322186, 1000000000000000, [1, 1, 1, 0, 0]⟩, ⟨3080939385966559, 1000000000000000, [1, 1, 1, 0, 2]⟩],
  [⟨-1026979795322186, 1000000000000000, [1, 1, 0, 1, 0]⟩, ⟨3080939385966559, 1000000000000000, [1, 1, 0, 1, 2]⟩],
  [⟨-1026979795322186, 1000000000000000, [1, 0, 1, 1, 0]⟩, ⟨3080939385966559, 1000000000000000, [1, 0, 1, 1, 2]⟩],
  [⟨-1026979795322186, 1000000000000000, [0, 1, 1, 1, 0]⟩, ⟨3080939385966559, 1000000000000000, [0, 1, 1, 1, 2]⟩],
  [⟨3827327723098713, 10000000000000000, [0, 0, 1, 0, 0]⟩, ⟨-1148198316929614, 1000000000000000, [0, 2, 1, 0, 0]⟩, ⟨-1148198316929614, 1000000000000000, [2, 0, 1, 0, 0]⟩, ⟨3444594950788842, 1000000000000000, [2, 2, 1, 0, 0]⟩],
  [⟨3827327723098713, 10000000000000000, [0, 1, 0, 0, 0]⟩, ⟨-1148198316929614, 1000000000000000, [0, 1, 2, 0, 0]⟩, ⟨-1148198316929614, 1000000000000000, [2, 1, 0, 0, 0]⟩, ⟨3444594950788842, 1000000000000000, [2, 1, 2, 0, 0]⟩],
  [⟨3827327723098713, 10000000000000000, [1, 0, 0, 0, 0]⟩, ⟨-1148198316929614, 1000000000000000, [1, 0, 2, 0, 0]⟩, ⟨-1148198316929614, 1000000000000000, [1, 2, 0, 0, 0]⟩, ⟨3444594950788842, 1000000000000000, [1, 2, 2, 0, 0]⟩],
  [⟨3827327723098713, 10000000000000000, [0, 0, 0, 1, 0]⟩, ⟨-1148198316929614, 1000000000000000, [0, 2, 0, 1, 0]⟩, ⟨-1148198316929614, 1000000000000000, [2, 0, 0, 1, 0]⟩, ⟨3444594950788842, 1000000000000000, [2, 2, 0, 1, 0]⟩],
  [⟨3827327723098713, 10000000000000000, [0, 0, 0, 1, 0]⟩, ⟨-1148198316929614, 1000000000000000, [0, 0, 2, 1, 0]⟩, ⟨-1148198316929614, 1000000000000000, [2, 0, 0, 1, 0]⟩, ⟨3444594950788842, 1000000000000000, [2, 0, 2, 1, 0]⟩],
  [⟨3827327723098713, 10000000000000000, [0, 0, 0, 1, 0]⟩, ⟨-1148198316929614, 1000000000000000, [0, 0, 2, 1, 0]⟩, ⟨-1148198316929614, 1000000000000000, [0, 2, 0, 1, 0]⟩, ⟨3444594950788842, 1000000000000000, [0, 2, 2, 1, 0]⟩],
  [⟨3827327723098713, 10000000000000000, [0, 1, 0, 0, 0]⟩, ⟨-1148198316929614, 1000000000000000, [0, 1, 0, 2, 0]⟩, ⟨-1148198316929614, 1000000000000000, [2, 1, 0, 0, 0]⟩, ⟨3444594950788842, 1000000000000000, [2, 1, 0, 2, 0]⟩],
  [⟨3827327723098713, 10000000000000000, [1, 0, 0, 0, 0]⟩, ⟨-1148198316929614, 1000000000000000, [1, 0, 0, 2, 0]⟩, ⟨-1148198316929614, 1000000000000000, [1, 2, 0, 0, 0]⟩, ⟨3444594950788842, 1000000000000000, [1, 2, 0, 2, 0]⟩],
  [⟨3827327723098713, 10000000000000000, [0, 0, 1, 0, 0]⟩, ⟨-1148198316929614, 1000000000000000, [0, 0, 1, 2, 0]⟩, ⟨-1148198316929614, 1000000000000000, [2, 0, 1, 0, 0]⟩, ⟨3444594950788842, 1000000000000000, [2, 0, 1, 2, 0]⟩],
  [⟨3827327723098713, 10000000000000000, [0, 0, 1, 0, 0]⟩, ⟨-1148198316929614, 1000000000000000, [0, 0, 1, 2, 0]⟩, ⟨-1148198316929614, 1000000000000000, [0, 2, 1, 0, 0]⟩, ⟨3444594950788842, 1000000000000000, [0, 2, 1, 2, 0]⟩],
  [⟨3827327723098713, 10000000000000000, [1, 0, 0, 0, 0]⟩, ⟨-1148198316929614, 1000000000000000, [1, 0, 0, 2, 0]⟩, ⟨-1148198316929614, 1000000000000000, [1, 0, 2, 0, 0]⟩, ⟨3444594950788842, 1000000000000000, [1, 0, 2, 2, 0]⟩],
  [⟨3827327723098713, 10000000000000000, [0, 1, 0, 0, 0]⟩, ⟨-1148198316929614, 1000000000000000, [0, 1, 0, 2, 0]⟩, ⟨-1148198316929614, 1000000000000000, [0, 1, 2, 0, 0]⟩, ⟨3444594950788842, 1000000000000000, [0, 1, 2, 2, 0]⟩],
  [⟨3827327723098713, 10000000000000000, [0, 0, 0, 0, 1]⟩, ⟨-1148198316929614, 1000000000000000, [0, 2, 0, 0, 1]⟩, ⟨-1148198316929614, 1000000000000000, [2, 0, 0, 0, 1]⟩, ⟨3444594950788842, 1000000000000000, [2, 2, 0, 0, 1]⟩],
  [⟨3827327723098713, 10000000000000000, [0, 0, 0, 0, 1]⟩, ⟨-1148198316929614, 1000000000000000, [0, 0, 2, 0, 1]⟩, ⟨-1148198316929614, 1000000000000000, [2, 0, 0, 0, 1]⟩, ⟨3444594950788842, 1000000000000000, [2, 0, 2, 0, 1]⟩],
  [⟨3827327723098713, 10000000000000000, [0, 0, 0, 0, 1]⟩, ⟨-1148198316929614, 1000000000000000, [0, 0, 2, 0, 1]⟩, ⟨-1148198316929614, 1000000000000000, [0, 2, 0, 0, 1]⟩, ⟨3444594950788842, 1000000000000000, [0, 2, 2, 0, 1]⟩],
  [⟨3827327723098713, 10000000000000000, [0, 0, 0, 0, 1]⟩, ⟨-1148198316929614, 1000000000000000, [0, 0, 0, 2, 1]⟩, ⟨-1148198316929614, 1000000000000000, [2, 0, 0, 0, 1]⟩, ⟨3444594950788842, 1000000000000000, [2, 0, 0, 2, 1]⟩],
  [⟨3827327723098713, 10000000000000000, [0, 0, 0, 0, 1]⟩, ⟨-1148198316929614, 1000000000000000, [0, 0, 0, 2, 1]⟩, ⟨-1148198316929614, 1000000000000000, [0, 2, 0, 0, 1]⟩, ⟨3444594950788842, 1000000000000000, [0, 2, 0, 2, 1]⟩],
  [⟨3827327723098713, 10000000000000000, [0, 0, 0, 0, 1]⟩, ⟨-1148198316929614, 1000000000000000, [0, 0, 0, 2, 1]⟩, ⟨-1148198316929614, 1000000000000000, [0, 0, 2, 0, 1]⟩, ⟨3444594950788842, 1000000000000000, [0, 0, 2, 2, 1]⟩],
  [⟨3827327723098713, 10000000000000000, [0, 1, 0, 0, 0]⟩, ⟨-1148198316929614, 1000000000000000, [0, 1, 0, 0, 2]⟩, ⟨-1148198316929614, 1000000000000000, [2, 1, 0, 0, 0]⟩, ⟨3444594950788842, 1000000000000000, [2, 1, 0, 0, 2]⟩],
  [⟨3827327723098713, 10000000000000000, [1, 0, 0, 0, 0]⟩, ⟨-1148198316929614, 1000000000000000, [1, 0, 0, 0, 2]⟩, ⟨-1148198316929614, 1000000000000000, [1, 2, 0, 0, 0]⟩, ⟨3444594950788842, 1000000000000000, [1, 2, 0, 0, 2]⟩],
  [⟨3827327723098713, 10000000000000000, [0, 0, 1, 0, 0]⟩, ⟨-1148198316929614, 1000000000000000, [0, 0, 1, 0, 2]⟩, ⟨-1148198316929614, 1000000000000000, [2, 0, 1, 0, 0]⟩, ⟨3444594950788842, 1000000000000000, [2, 0, 1, 0, 2]⟩],
  [⟨3827327723098713, 10000000000000000, [0, 0, 1, 0, 0]⟩, ⟨-1148198316929614, 1000000000000000, [0, 0, 1, 0, 2]⟩, ⟨-1148198316929614, 1000000000000000, [0, 2, 1, 0, 0]⟩, ⟨3444594950788842, 1000000000000000, [0, 2, 1, 0, 2]⟩],
  [⟨3827327723098713, 10000000000000000, [1, 0, 0, 0, 0]⟩, ⟨-1148198316929614, 1000000000000000, [1, 0, 0, 0, 2]⟩, ⟨-1148198316929614, 1000000000000000, [1, 0, 2, 0, 0]⟩, ⟨3444594950788842, 1000000000000000, [1, 0, 2, 0, 2]⟩],
  [⟨3827327723098713, 10000000000000000, [0, 1, 0, 0, 0]⟩, ⟨-1148198316929614, 1000000000000000, [0, 1, 0, 0, 2]⟩, ⟨-1148198316929614, 1000000000000000, [0, 1, 2, 0, 0]⟩, ⟨3444594950788842, 1000000000000000, [0, 1, 2, 0, 2]⟩],
  [⟨3827327723098713, 10000000000000000, [0, 0, 0, 1, 0]⟩, ⟨-1148198316929614, 1000000000000000, [0, 0, 0, 1, 2]⟩, ⟨-1148198316929614, 1000000000000000, [2, 0, 0, 1, 0]⟩, ⟨3444594950788842, 1000000000000000, [2, 0, 0, 1, 2]⟩],
  [⟨3827327723098713, 10000000000000000, [0, 0, 0, 1, 0]⟩, ⟨-1148198316929614, 1000000000000000, [0, 0, 0, 1, 2]⟩, ⟨-1148198316929614, 1000000000000000, [0, 2, 0, 1, 0]⟩, ⟨3444594950788842, 1000000000000000, [0, 2, 0, 1, 2]⟩],
  [⟨3827327723098713, 10000000000000000, [0, 0, 0, 1, 0]⟩, ⟨-1148198316929614, 1000000000000000, [0, 0, 0, 1, 2]⟩, ⟨-1148198316929614, 1000000000000000, [0, 0, 2, 1, 0]⟩, ⟨3444594950788842, 1000000000000000, [0, 0, 2, 1, 2]⟩],
  [⟨3827327723098713, 10000000000000000, [1, 0, 0, 0, 0]⟩, ⟨-1148198316929614, 1000000000000000, [1, 0, 0, 0, 2]⟩, ⟨-1148198316929614, 1000000000000000, [1, 0, 0, 2, 0]⟩, ⟨3444594950788842, 1000000000000000, [1, 0, 0, 2, 2]⟩],
  [⟨3827327723098713, 10000000000000000, [0, 1, 0, 0, 0]⟩, ⟨-1148198316929614, 1000000000000000, [0, 1, 0, 0, 2]⟩, ⟨-1148198316929614, 1000000000000000, [0, 1, 0, 2, 0]⟩, ⟨3444594950788842, 1000000000000000, [0, 1, 0, 2, 2]⟩],
  [⟨3827327723098713, 10000000000000000, [0, 0, 1, 0, 0]⟩, ⟨-1148198316929614, 1000000000000000, [0, 0, 1, 0, 2]⟩, ⟨-1148198316929614, 1000000000000000, [0, 0, 1, 2, 0]⟩, ⟨3444594950788842, 1000000000000000, [0, 0, 1, 2, 2]⟩],
  [⟨-2104682280060341, 1000000000000000, [1, 1, 1, 0, 0]⟩, ⟨3507803800100568, 1000000000000000, [3, 1, 1, 0, 0]⟩],
  [⟨-2104682280060341, 1000000000000000, [1, 1, 1, 0, 0]⟩, ⟨3507803800100568, 1000000000000000, [1, 3, 1, 0, 0]⟩],
  [⟨-2104682280060341, 1000000000000000, [1, 1, 1, 0, 0]⟩, ⟨3507803800100568, 1000000000000000, [1, 1, 3, 0, 0]⟩],
  [⟨-2104682280060341, 1000000000000000, [1, 1, 0, 1, 0]⟩, ⟨3507803800100568, 1000000000000000, [3, 1, 0, 1, 0]⟩],
  [⟨-2104682280060341, 1000000000000000, [1, 1, 0, 1, 0]⟩, ⟨3507803800100568, 1000000000000000, [1, 3, 0, 1, 0]⟩],
  [⟨-2104682280060341, 1000000000000000, [1, 0, 1, 1, 0]⟩, ⟨3507803800100568, 1000000000000000, [3, 0, 1, 1, 0]⟩],
  [⟨-2104682280060341, 1000000000000000, [0, 1, 1, 1, 0]⟩, ⟨3507803800100568, 1000000000000000, [0, 3, 1, 1, 0]⟩],
  [⟨-2104682280060341, 1000000000000000, [1, 0, 1, 1, 0]⟩, ⟨3507803800100568, 1000000000000000, [1, 0, 3, 1, 0]⟩],
  [⟨-2104682280060341, 1000000000000000, [0, 1, 1, 1, 0]⟩, ⟨3507803800100568, 1000000000000000, [0, 1, 3, 1, 0]⟩],
  [⟨-2104682280060341, 1000000000000000, [1, 1, 0, 1, 0]⟩, ⟨3507803800100568, 1000000000000000, [1, 1, 0, 3, 0]⟩],
  [⟨-2104682280060341, 1000000000000000, [1, 0, 1, 1, 0]⟩, ⟨3507803800100568, 1000000000000000, [1, 0, 1, 3, 0]⟩],
  [⟨-2104682280060341, 1000000000000000, [0, 1, 1, 1, 0]⟩, ⟨3507803800100568, 1000000000000000, [0, 1, 1, 3, 0]⟩],
  [⟨-2104682280060341, 1000000000000000, [1, 1, 0, 0, 1]⟩, ⟨3507803800100568, 1000000000000000, [3, 1, 0, 0, 1]⟩],
  [⟨-2104682280060341, 1000000000000000, [1, 1, 0, 0, 1]⟩, ⟨3507803800100568, 1000000000000000, [1, 3, 0, 0, 1]⟩],
  [⟨-2104682280060341, 1000000000000000, [1, 0, 1, 0, 1]⟩, ⟨3507803800100568, 1000000000000000, [3, 0, 1, 0, 1]⟩],
  [⟨-2104682280060341, 1000000000000000, [0, 1, 1, 0, 1]⟩, ⟨3507803800100568, 1000000000000000, [0, 3, 1, 0, 1]⟩],
  [⟨-2104682280060341, 1000000000000000, [1, 0, 1, 0, 1]⟩, ⟨3507803800100568, 1000000000000000, [1, 0, 3, 0, 1]⟩],
  [⟨-2104682280060341, 1000000000000000, [0, 1, 1, 0, 1]⟩, ⟨3507803800100568, 1000000000000000, [0, 1, 3, 0, 1]⟩],
  [⟨-2104682280060341, 1000000000000000, [1, 0, 0, 1, 1]⟩, ⟨3507803800100568, 1000000000000000, [3, 0, 0, 1, 1]⟩],
  [⟨-2104682280060341, 1000000000000000, [0, 1, 0, 1, 1]⟩, ⟨3507803800100568, 1000000000000000, [0, 3, 0, 1, 1]⟩],
  [⟨-2104682280060341, 1000000000000000, [0, 0, 1, 1, 1]⟩, ⟨3507803800100568, 1000000000000000, [0, 0, 3, 1, 1]⟩],
  [⟨-2104682280060341, 1000000000000000, [1, 0, 0, 1, 1]⟩, ⟨3507803800100568, 1000000000000000, [1, 0, 0, 3, 1]⟩],
  [⟨-2104682280060341, 1000000000000000, [0, 1, 0, 1, 1]⟩, ⟨3507803800100568, 1000000000000000, [0, 1, 0, 3, 1]⟩],
  [⟨-2104682280060341, 1000000000000000, [0, 0, 1, 1, 1]⟩, ⟨3507803800100568, 1000000000000000, [0, 0, 1, 3, 1]⟩],
  [⟨-2104682280060341, 1000000000000000, [1, 1, 0, 0, 1]⟩, ⟨3507803800100568, 1000000000000000, [1, 1, 0, 0, 3]⟩],
  [⟨-2104682280060341, 1000000000000000, [1, 0, 1, 0, 1]⟩, ⟨3507803800100568, 1000000000000000, [1, 0, 1, 0, 3]⟩],
  [⟨-2104682280060341, 1000000000000000, [0, 1, 1, 0, 1]⟩, ⟨3507803800100568, 1000000000000000, [0, 1, 1, 0, 3]⟩],
  [⟨-2104682280060341, 1000000000000000, [1, 0, 0, 1, 1]⟩, ⟨3507803800100568, 1000000000000000, [1, 0, 0, 1, 3]⟩],
  [⟨-2104682280060341, 1000000000000000, [0, 1, 0, 1, 1]⟩, ⟨3507803800100568, 1000000000000000, [0, 1, 0, 1, 3]⟩],
  [⟨-2104682280060341, 1000000000000000, [0, 0, 1, 1, 1]⟩, ⟨3507803800100568, 1000000000000000, [0, 0, 1, 1, 3]⟩],
  [⟨3444594950788838, 10000000000000000, [0, 1, 0, 0, 0]⟩, ⟨-3444594950788839, 1000000000000000, [2, 1, 0, 0, 0]⟩, ⟨4018694109253645, 1000000000000000, [4, 1, 0, 0, 0]⟩],
  [⟨3444594950788838, 10000000000000000, [1, 0, 0, 0, 0]⟩, ⟨-3444594950788839, 1000000000000000, [1, 2, 0, 0, 0]⟩, ⟨4018694109253645, 1000000000000000, [1, 4, 0, 0, 0]⟩],
  [⟨3444594950788838, 10000000000000000, [0, 0, 1, 0, 0]⟩, ⟨-3444594950788839, 1000000000000000, [2, 0, 1, 0, 0]⟩, ⟨4018694109253645, 1000000000000000, [4, 0, 1, 0, 0]⟩],
  [⟨3444594950788838, 10000000000000000, [0, 0, 1, 0, 0]⟩, ⟨-3444594950788839, 1000000000000000, [0, 2, 1, 0, 0]⟩, ⟨4018694109253645, 1000000000000000, [0, 4, 1, 0, 0]⟩],
  [⟨3444594950788838, 10000000000000000, [1, 0, 0, 0, 0]⟩, ⟨-3444594950788839, 1000000000000000, [1, 0, 2, 0, 0]⟩, ⟨4018694109253645, 1000000000000000, [1, 0, 4, 0, 0]⟩],
  [⟨3444594950788838, 10000000000000000, [0, 1, 0, 0, 0]⟩, ⟨-3444594950788839, 1000000000000000, [0, 1, 2, 0, 0]⟩, ⟨4018694109253645, 1000000000000000, [0, 1, 4, 0, 0]⟩],
  [⟨3444594950788838, 10000000000000000, [0, 0, 0, 1, 0]⟩, ⟨-3444594950788839, 1000000000000000, [2, 0, 0, 1, 0]⟩, ⟨4018694109253645, 1000000000000000, [4, 0, 0, 1, 0]⟩],
  [⟨3444594950788838, 10000000000000000, [0, 0, 0, 1, 0]⟩, ⟨-3444594950788839, 1000000000000000, [0, 2, 0, 1, 0]⟩, ⟨4018694109253645, 1000000000000000, [0, 4, 0, 1, 0]⟩],
  [⟨3444594950788838, 10000000000000000, [0, 0, 0, 1, 0]⟩, ⟨-3444594950788839, 1000000000000000, [0, 0, 2, 1, 0]⟩, ⟨4018694109253645, 1000000000000000, [0, 0, 4, 1, 0]⟩],
  [⟨3444594950788838, 10000000000000000, [1, 0, 0, 0, 0]⟩, ⟨-3444594950788839, 1000000000000000, [1, 0, 0, 2, 0]⟩, ⟨4018694109253645, 1000000000000000, [1, 0, 0, 4, 0]⟩],
  [⟨3444594950788838, 10000000000000000, [0, 1, 0, 0, 0]⟩, ⟨-3444594950788839, 1000000000000000, [0, 1, 0, 2, 0]⟩, ⟨4018694109253645, 1000000000000000, [0, 1, 0, 4, 0]⟩],
  [⟨3444594950788838, 10000000000000000, [0, 0, 1, 0, 0]⟩, ⟨-3444594950788839, 1000000000000000, [0, 0, 1, 2, 0]⟩, ⟨4018694109253645, 1000000000000000, [0, 0, 1, 4, 0]⟩],
  [⟨3444594950788838, 10000000000000000, [0, 0, 0, 0, 1]⟩, ⟨-3444594950788839, 1000000000000000, [2, 0, 0, 0, 1]⟩, ⟨4018694109253645, 1000000000000000, [4, 0, 0, 0, 1]⟩],
  [⟨3444594950788838, 10000000000000000, [0, 0, 0, 0, 1]⟩, ⟨-3444594950788839, 1000000000000000, [0, 2, 0, 0, 1]⟩, ⟨4018694109253645, 1000000000000000, [0, 4, 0, 0, 1]⟩],
  [⟨3444594950788838, 10000000000000000, [0, 0, 0, 0, 1]⟩, ⟨-3444594950788839, 1000000000000000, [0, 0, 2, 0, 1]⟩, ⟨4018694109253645, 1000000000000000, [0, 0, 4, 0, 1]⟩],
  [⟨3444594950788838, 10000000000000000, [0, 0, 0, 0, 1]⟩, ⟨-3444594950788839, 1000000000000000, [0, 0, 0, 2, 1]⟩, ⟨4018694109253645, 1000000000000000, [0, 0, 0, 4, 1]⟩],
  [⟨3444594950788838, 10000000000000000, [1, 0, 0, 0, 0]⟩, ⟨-3444594950788839, 1000000000000000, [1, 0, 0, 0, 2]⟩, ⟨4018694109253645, 1000000000000000, [1, 0, 0, 0, 4]⟩],
  [⟨3444594950788838, 10000000000000000, [0, 1, 0, 0, 0]⟩, ⟨-3444594950788839, 1000000000000000, [0, 1, 0, 0, 2]⟩, ⟨4018694109253645, 1000000000000000, [0, 1, 0, 0, 4]⟩],
  [⟨3444594950788838, 10000000000000000, [0, 0, 1, 0, 0]⟩, ⟨-3444594950788839, 1000000000000000, [0, 0, 1, 0, 2]⟩, ⟨4018694109253645, 1000000000000000, [0, 0, 1, 0, 4]⟩],
  [⟨3444594950788838, 10000000000000000, [0, 0, 0, 1, 0]⟩, ⟨-3444594950788839, 1000000000000000, [0, 0, 0, 1, 2]⟩, ⟨4018694109253645, 1000000000000000, [0, 0, 0, 1, 4]⟩],
  [⟨-1778781183844715, 1000000000000000, [0, 1, 1, 1, 1]⟩, ⟨5336343551534144, 1000000000000000, [2, 1, 1, 1, 1]⟩],
  [⟨-1778781183844715, 1000000000000000, [1, 0, 1, 1, 1]⟩, ⟨5336343551534144, 1000000000000000, [1, 2, 1, 1, 1]⟩],
  [⟨-1778781183844715, 1000000000000000, [1, 1, 0, 1, 1]⟩, ⟨5336343551534144, 1000000000000000, [1, 1, 2, 1, 1]⟩],
  [⟨-1778781183844715, 1000000000000000, [1, 1, 1, 0, 1]⟩, ⟨5336343551534144, 1000000000000000, [1, 1, 1, 2, 1]⟩],
  [⟨-1778781183844715, 1000000000000000, [1, 1, 1, 1, 0]⟩, ⟨5336343551534144, 1000000000000000, [1, 1, 1, 1, 2]⟩],
  [⟨6629126073623886, 10000000000000000, [0, 0, 1, 1, 0]⟩, ⟨-1988737822087165, 1000000000000000, [0, 2, 1, 1, 0]⟩, ⟨-1988737822087165, 1000000000000000, [2, 0, 1, 1, 0]⟩, ⟨5966213466261497, 1000000000000000, [2, 2, 1, 1, 0]⟩],
  [⟨6629126073623886, 10000000000000000, [0, 1, 0, 1, 0]⟩, ⟨-1988737822087165, 1000000000000000, [0, 1, 2, 1, 0]⟩, ⟨-1988737822087165, 1000000000000000, [2, 1, 0, 1, 0]⟩, ⟨5966213466261497, 1000000000000000, [2, 1, 2, 1, 0]⟩],
  [⟨6629126073623886, 10000000000000000, [1, 0, 0, 1, 0]⟩, ⟨-1988737822087165, 1000000000000000, [1, 0, 2, 1, 0]⟩, ⟨-1988737822087165, 1000000000000000, [1, 2, 0, 1, 0]⟩, ⟨5966213466261497, 1000000000000000, [1, 2, 2, 1, 0]⟩],
  [⟨6629126073623886, 10000000000000000, [0, 1, 1, 0, 0]⟩, ⟨-1988737822087165, 1000000000000000, [0, 1, 1, 2, 0]⟩, ⟨-1988737822087165, 1000000000000000, [2, 1, 1, 0, 0]⟩, ⟨5966213466261497, 1000000000000000, [2, 1, 1, 2, 0]⟩],
  [⟨6629126073623886, 10000000000000000, [1, 0, 1, 0, 0]⟩, ⟨-1988737822087165, 1000000000000000, [1, 0, 1, 2, 0]⟩, ⟨-1988737822087165, 1000000000000000, [1, 2, 1, 0, 0]⟩, ⟨5966213466261497, 1000000000000000, [1, 2, 1, 2, 0]⟩],
  [⟨6629126073623886, 10000000000000000, [1, 1, 0, 0, 0]⟩, ⟨-1988737822087165, 1000000000000000, [1, 1, 0, 2, 0]⟩, ⟨-1988737822087165, 1000000000000000, [1, 1, 2, 0, 0]⟩, ⟨5966213466261497, 1000000000000000, [1, 1, 2, 2, 0]⟩],
  [⟨6629126073623886, 10000000000000000, [0, 0, 1, 0, 1]⟩, ⟨-1988737822087165, 1000000000000000, [0, 2, 1, 0, 1]⟩, ⟨-1988737822087165, 1000000000000000, [2, 0, 1, 0, 1]⟩, ⟨5966213466261497, 1000000000000000, [2, 2, 1, 0, 1]⟩],
  [⟨6629126073623886, 10000000000000000, [0, 1, 0, 0, 1]⟩, ⟨-1988737822087165, 1000000000000000, [0, 1, 2, 0, 1]⟩, ⟨-1988737822087165, 1000000000000000, [2, 1, 0, 0, 1]⟩, ⟨5966213466261497, 1000000000000000, [2, 1, 2, 0, 1]⟩],
  [⟨6629126073623886, 10000000000000000, [1, 0, 0, 0, 1]⟩, ⟨-1988737822087165, 1000000000000000, [1, 0, 2, 0, 1]⟩, ⟨-1988737822087165, 1000000000000000, [1, 2, 0, 0, 1]⟩, ⟨5966213466261497, 1000000000000000, [1, 2, 2, 0, 1]⟩],
  [⟨6629126073623886, 10000000000000000, [0, 0, 0, 1, 1]⟩, ⟨-1988737822087165, 1000000000000000, [0, 2, 0, 1, 1]⟩, ⟨-1988737822087165, 1000000000000000, [2, 0, 0, 1, 1]⟩, ⟨5966213466261497, 1000000000000000, [2, 2, 0, 1, 1]⟩],
  [⟨6629126073623886, 10000000000000000, [0, 0, 0, 1, 1]⟩, ⟨-1988737822087165, 1000000000000000, [0, 0, 2, 1, 1]⟩, ⟨-1988737822087165, 1000000000000000, [2, 0, 0, 1, 1]⟩, ⟨5966213466261497, 1000000000000000, [2, 0, 2, 1, 1]⟩],
  [⟨6629126073623886, 10000000000000000, [0, 0, 0, 1, 1]⟩, ⟨-1988737822087165, 1000000000000000, [0, 0, 2, 1, 1]⟩, ⟨-1988737822087165, 1000000000000000, [0, 2, 0, 1, 1]⟩, ⟨5966213466261497, 1000000000000000, [0, 2, 2, 1, 1]⟩],
  [⟨6629126073623886, 10000000000000000, [0, 1, 0, 0, 1]⟩, ⟨-1988737822087165, 1000000000000000, [0, 1, 0, 2, 1]⟩, ⟨-1988737822087165, 1000000000000000, [2, 1, 0, 0, 1]⟩, ⟨5966213466261497, 1000000000000000, [2, 1, 0, 2, 1]⟩],
  [⟨6629126073623886, 10000000000000000, [1, 0, 0, 0, 1]⟩, ⟨-1988737822087165, 1000000000000000, [1, 0, 0, 2, 1]⟩, ⟨-1988737822087165, 1000000000000000, [1, 2, 0, 0, 1]⟩, ⟨5966213466261497, 1000000000000000, [1, 2, 0, 2, 1]⟩],
  [⟨6629126073623886, 10000000000000000, [0, 0, 1, 0, 1]⟩, ⟨-1988737822087165, 1000000000000000, [0, 0, 1, 2, 1]⟩, ⟨-1988737822087165, 1000000000000000, [2, 0, 1, 0, 1]⟩, ⟨5966213466261497, 1000000000000000, [2, 0, 1, 2, 1]⟩],
  [⟨6629126073623886, 10000000000000000, [0, 0, 1, 0, 1]⟩, ⟨-1988737822087165, 1000000000000000, [0, 0, 1, 2, 1]⟩, ⟨-1988737822087165, 1000000000000000, [0, 2, 1, 0, 1]⟩, ⟨5966213466261497, 1000000000000000, [0, 2, 1, 2, 1]⟩],
  [⟨6629126073623886, 10000000000000000, [1, 0, 0, 0, 1]⟩, ⟨-1988737822087165, 1000000000000000, [1, 0, 0, 2, 1]⟩, ⟨-1988737822087165, 1000000000000000, [1, 0, 2, 0, 1]⟩, ⟨5966213466261497, 1000000000000000, [1, 0, 2, 2, 1]⟩],
  [⟨6629126073623886, 10000000000000000, [0, 1, 0, 0, 1]⟩, ⟨-1988737822087165, 1000000000000000, [0, 1, 0, 2, 1]⟩, ⟨-1988737822087165, 1000000000000000, [0, 1, 2, 0, 1]⟩, ⟨5966213466261497, 1000000000000000, [0, 1, 2, 2, 1]⟩],
  [⟨6629126073623886, 10000000000000000, [0, 1, 1, 0, 0]⟩, ⟨-1988737822087165, 1000000000000000, [0, 1, 1, 0, 2]⟩, ⟨-1988737822087165, 1000000000000000, [2, 1, 1, 0, 0]⟩, ⟨5966213466261497, 1000000000000000, [2, 1, 1, 0, 2]⟩],
  [⟨6629126073623886, 10000000000000000, [1, 0, 1, 0, 0]⟩, ⟨-1988737822087165, 1000000000000000, [1, 0, 1, 0, 2]⟩, ⟨-1988737822087165, 1000000000000000, [1, 2, 1, 0, 0]⟩, ⟨5966213466261497, 1000000000000000, [1, 2, 1, 0, 2]⟩],
  [⟨6629126073623886, 10000000000000000, [1, 1, 0, 0, 0]⟩, ⟨-1988737822087165, 1000000000000000, [1, 1, 0, 0, 2]⟩, ⟨-1988737822087165, 1000000000000000, [1, 1, 2, 0, 0]⟩, ⟨5966213466261497, 1000000000000000, [1, 1, 2, 0, 2]⟩],
  [⟨6629126073623886, 10000000000000000, [0, 1, 0, 1, 0]⟩, ⟨-1988737822087165, 1000000000000000, [0, 1, 0, 1, 2]⟩, ⟨-1988737822087165, 1000000000000000, [2, 1, 0, 1, 0]⟩, ⟨5966213466261497, 1000000000000000, [2, 1, 0, 1, 2]⟩],
  [⟨6629126073623886, 10000000000000000, [1, 0, 0, 1, 0]⟩, ⟨-1988737822087165, 1000000000000000, [1, 0, 0, 1, 2]⟩, ⟨-1988737822087165, 1000000000000000, [1, 2, 0, 1, 0]⟩, ⟨5966213466261497, 1000000000000000, [1, 2, 0, 1, 2]⟩],
  [⟨6629126073623886, 10000000000000000, [0, 0, 1, 1, 0]⟩, ⟨-1988737822087165, 1000000000000000, [0, 0, 1, 1, 2]⟩, ⟨-1988737822087165, 1000000000000000, [2, 0, 1, 1, 0]⟩, ⟨5966213466261497, 1000000000000000, [2, 0, 1, 1, 2]⟩],
  [⟨6629126073623886, 10000000000000000, [0, 0, 1, 1, 0]⟩, ⟨-1988737822087165, 1000000000000000, [0, 0, 1, 1, 2]⟩, ⟨-1988737822087165, 1000000000000000, [0, 2, 1, 1, 0]⟩, ⟨5966213466261497, 1000000000000000, [0, 2, 1, 1, 2]⟩],
  [⟨6629126073623886, 10000000000000000, [1, 0, 0, 1, 0]⟩, ⟨-1988737822087165, 1000000000000000, [1, 0, 0, 1, 2]⟩, ⟨-1988737822087165, 1000000000000000, [1, 0, 2, 1, 0]⟩, ⟨5966213466261497, 1000000000000000, [1, 0, 2, 1, 2]⟩],
  [⟨6629126073623886, 10000000000000000, [0, 1, 0, 1, 0]⟩, ⟨-1988737822087165, 1000000000000000, [0, 1, 0, 1, 2]⟩, ⟨-1988737822087165, 1000000000000000, [0, 1, 2, 1, 0]⟩, ⟨5966213466261497, 1000000000000000, [0, 1, 2, 1, 2]⟩],
  [⟨6629126073623886, 10000000000000000, [1, 1, 0, 0, 0]⟩, ⟨-1988737822087165, 1000000000000000, [1, 1, 0, 0, 2]⟩, ⟨-1988737822087165, 1000000000000000, [1, 1, 0, 2, 0]⟩, ⟨5966213466261497, 1000000000000000, [1, 1, 0, 2, 2]⟩],
  [⟨6629126073623886, 10000000000000000, [1, 0, 1, 0, 0]⟩, ⟨-1988737822087165, 1000000000000000, [1, 0, 1, 0, 2]⟩, ⟨-1988737822087165, 1000000000000000, [1, 0, 1, 2, 0]⟩, ⟨5966213466261497, 1000000000000000, [1, 0, 1, 2, 2]⟩],
  [⟨6629126073623886, 10000000000000000, [0, 1, 1, 0, 0]⟩, ⟨-1988737822087165, 1000000000000000, [0, 1, 1, 0, 2]⟩, ⟨-1988737822087165, 1000000000000000, [0, 1, 1, 2, 0]⟩, ⟨5966213466261497, 1000000000000000, [0, 1, 1, 2, 2]⟩],
  [⟨-364541664285442, 100000000000000, [1, 1, 1, 1, 0]⟩, ⟨6075694404757367, 1000000000000000, [3, 1, 1, 1, 0]⟩],
  [⟨-364541664285442, 100000000000000, [1, 1, 1, 1, 0]⟩, ⟨6075694404757367, 1000000000000000, [1, 3, 1, 1, 0]⟩],
  [⟨-364541664285442, 100000000000000, [1, 1, 1, 1, 0]⟩, ⟨6075694404757367, 1000000000000000, [1, 1, 3, 1, 0]⟩],
  [⟨-364541664285442, 100000000000000, [1, 1, 1, 1, 0]⟩, ⟨6075694404757367, 1000000000000000, [1, 1, 1, 3, 0]⟩],
  [⟨-364541664285442, 100000000000000, [1, 1, 1, 0, 1]⟩, ⟨6075694404757367, 1000000000000000, [3, 1, 1, 0, 1]⟩],
  [⟨-364541664285442, 100000000000000, [1, 1, 1, 0, 1]⟩, ⟨6075694404757367, 1000000000000000, [1, 3, 1, 0, 1]⟩],
  [⟨-364541664285442, 100000000000000, [1, 1, 1, 0, 1]⟩, ⟨6075694404757367, 1000000000000000, [1, 1, 3, 0, 1]⟩],
  [⟨-364541664285442, 100000000000000, [1, 1, 0, 1, 1]⟩, ⟨6075694404757367, 1000000000000000, [3, 1, 0, 1, 1]⟩],
  [⟨-364541664285442, 100000000000000, [1, 1, 0, 1, 1]⟩, ⟨6075694404757367, 1000000000000000, [1, 3, 0, 1, 1]⟩],
  [⟨-364541664285442, 100000000000000, [1, 0, 1, 1, 1]⟩, ⟨6075694404757367, 1000000000000000, [3, 0, 1, 1, 1]⟩],
  [⟨-364541664285442, 100000000000000, [0, 1, 1, 1, 1]⟩, ⟨6075694404757367, 1000000000000000, [0, 3, 1, 1, 1]⟩],
  [⟨-364541664285442, 100000000000000, [1, 0, 1, 1, 1]⟩, ⟨6075694404757367, 1000000000000000, [1, 0, 3, 1, 1]⟩],
  [⟨-364541664285442, 100000000000000, [0, 1, 1, 1, 1]⟩, ⟨6075694404757367, 1000000000000000, [0, 1, 3, 1, 1]⟩],
  [⟨-364541664285442, 100000000000000, [1, 1, 0, 1, 1]⟩, ⟨6075694404757367, 1000000000000000, [1, 1, 0, 3, 1]⟩],
  [⟨-364541664285442, 100000000000000, [1, 0, 1, 1, 1]⟩, ⟨6075694404757367, 1000000000000000, [1, 0, 1, 3, 1]⟩],
  [⟨-364541664285442, 100000000000000, [0, 1, 1, 1, 1]⟩, ⟨6075694404757367, 1000000000000000, [0, 1, 1, 3, 1]⟩],
  [⟨-364541664285442, 100000000000000, [1, 1, 1, 0, 1]⟩, ⟨6075694404757367, 1000000000000000, [1, 1, 1, 0, 3]⟩],
  [⟨-364541664285442, 100000000000000, [1, 1, 0, 1, 1]⟩, ⟨6075694404757367, 1000000000000000, [1, 1, 0, 1, 3]⟩],
  [⟨-364541664285442, 100000000000000, [1, 0, 1, 1, 1]⟩, ⟨6075694404757367, 1000000000000000, [1, 0, 1, 1, 3]⟩],
  [⟨-364541664285442, 100000000000000, [0, 1, 1, 1, 1]⟩, ⟨6075694404757367, 1000000000000000, [0, 1, 1, 1, 3]⟩],
  [⟨5966213466261489, 10000000000000000, [0, 1, 1, 0, 0]⟩, ⟨-5966213466261488, 1000000000000000, [2, 1, 1, 0, 0]⟩, ⟨6960582377305069, 1000000000000000, [4, 1, 1, 0, 0]⟩],
  [⟨5966213466261489, 10000000000000000, [1, 0, 1, 0, 0]⟩, ⟨-5966213466261488, 1000000000000000, [1, 2, 1, 0, 0]⟩, ⟨6960582377305069, 1000000000000000, [1, 4, 1, 0, 0]⟩],
  [⟨5966213466261489, 10000000000000000, [1, 1, 0, 0, 0]⟩, ⟨-5966213466261488, 1000000000000000, [1, 1, 2, 0, 0]⟩, ⟨6960582377305069, 1000000000000000, [1, 1, 4, 0, 0]⟩],
  [⟨5966213466261489, 10000000000000000, [0, 1, 0, 1, 0]⟩, ⟨-5966213466261488, 1000000000000000, [2, 1, 0, 1, 0]⟩, ⟨6960582377305069, 1000000000000000, [4, 1, 0, 1, 0]⟩],
  [⟨5966213466261489, 10000000000000000, [1, 0, 0, 1, 0]⟩, ⟨-5966213466261488, 1000000000000000, [1, 2, 0, 1, 0]⟩, ⟨6960582377305069, 1000000000000000, [1, 4, 0, 1, 0]⟩],
  [⟨5966213466261489, 10000000000000000, [0, 0, 1, 1, 0]⟩, ⟨-5966213466261488, 1000000000000000, [2, 0, 1, 1, 0]⟩, ⟨6960582377305069, 1000000000000000, [4, 0, 1, 1, 0]⟩],
  [⟨5966213466261489, 10000000000000000, [0, 0, 1, 1, 0]⟩, ⟨-5966213466261488, 1000000000000000, [0, 2, 1, 1, 0]⟩, ⟨6960582377305069, 1000000000000000, [0, 4, 1, 1, 0]⟩],
  [⟨5966213466261489, 10000000000000000, [1, 0, 0, 1, 0]⟩, ⟨-5966213466261488, 1000000000000000, [1, 0, 2, 1, 0]⟩, ⟨6960582377305069, 1000000000000000, [1, 0, 4, 1, 0]⟩],
  [⟨5966213466261489, 10000000000000000, [0, 1, 0, 1, 0]⟩, ⟨-5966213466261488, 1000000000000000, [0, 1, 2, 1, 0]⟩, ⟨6960582377305069, 1000000000000000, [0, 1, 4, 1, 0]⟩],
  [⟨5966213466261489, 10000000000000000, [1, 1, 0, 0, 0]⟩, ⟨-5966213466261488, 1000000000000000, [1, 1, 0, 2, 0]⟩, ⟨6960582377305069, 1000000000000000, [1, 1, 0, 4, 0]⟩],
  [⟨5966213466261489, 10000000000000000, [1, 0, 1, 0, 0]⟩, ⟨-5966213466261488, 1000000000000000, [1, 0, 1, 2, 0]⟩, ⟨6960582377305069, 1000000000000000, [1, 0, 1, 4, 0]⟩],
  [⟨5966213466261489, 10000000000000000, [0, 1, 1, 0, 0]⟩, ⟨-5966213466261488, 1000000000000000, [0, 1, 1, 2, 0]⟩, ⟨6960582377305069, 1000000000000000, [0, 1, 1, 4, 0]⟩],
  [⟨5966213466261489, 10000000000000000, [0, 1, 0, 0, 1]⟩, ⟨-5966213466261488, 1000000000000000, [2, 1, 0, 0, 1]⟩, ⟨6960582377305069, 1000000000000000, [4, 1, 0, 0, 1]⟩],
  [⟨5966213466261489, 10000000000000000, [1, 0, 0, 0, 1]⟩, ⟨-5966213466261488, 1000000000000000, [1, 2, 0, 0, 1]⟩, ⟨6960582377305069, 1000000000000000, [1, 4, 0, 0, 1]⟩],
  [⟨5966213466261489, 10000000000000000, [0, 0, 1, 0, 1]⟩, ⟨-5966213466261488, 1000000000000000, [2, 0, 1, 0, 1]⟩, ⟨6960582377305069, 1000000000000000, [4, 0, 1, 0, 1]⟩],
  [⟨5966213466261489, 10000000000000000, [0, 0, 1, 0, 1]⟩, ⟨-5966213466261488, 1000000000000000, [0, 2, 1, 0, 1]⟩, ⟨6960582377305069, 1000000000000000, [0, 4, 1, 0, 1]⟩],
  [⟨5966213466261489, 10000000000000000, [1, 0, 0, 0, 1]⟩, ⟨-5966213466261488, 1000000000000000, [1, 0, 2, 0, 1]⟩, ⟨6960582377305069, 1000000000000000, [1, 0, 4, 0, 1]⟩],
  [⟨5966213466261489, 10000000000000000, [0, 1, 0, 0, 1]⟩, ⟨-5966213466261488, 1000000000000000, [0, 1, 2, 0, 1]⟩, ⟨6960582377305069, 1000000000000000, [0, 1, 4, 0, 1]⟩],
  [⟨5966213466261489, 10000000000000000, [0, 0, 0, 1, 1]⟩, ⟨-5966213466261488, 1000000000000000, [2, 0, 0, 1, 1]⟩, ⟨6960582377305069, 1000000000000000, [4, 0, 0, 1, 1]⟩],
  [⟨5966213466261489, 10000000000000000, [0, 0, 0, 1, 1]⟩, ⟨-5966213466261488, 1000000000000000, [0, 2, 0, 1, 1]⟩, ⟨6960582377305069, 1000000000000000, [0, 4, 0, 1, 1]⟩],
  [⟨5966213466261489, 10000000000000000, [0, 0, 0, 1, 1]⟩, ⟨-5966213466261488, 1000000000000000, [0, 0, 2, 1, 1]⟩, ⟨6960582377305069, 1000000000000000, [0, 0, 4, 1, 1]⟩],
  [⟨5966213466261489, 10000000000000000, [1, 0, 0, 0, 1]⟩, ⟨-5966213466261488, 1000000000000000, [1, 0, 0, 2, 1]⟩, ⟨6960582377305069, 1000000000000000, [1, 0, 0, 4, 1]⟩],
  [⟨5966213466261489, 10000000000000000, [0, 1, 0, 0, 1]⟩, ⟨-5966213466261488, 1000000000000000, [0, 1, 0, 2, 1]⟩, ⟨6960582377305069, 1000000000000000, [0, 1, 0, 4, 1]⟩],
  [⟨5966213466261489, 10000000000000000, [0, 0, 1, 0, 1]⟩, ⟨-5966213466261488, 1000000000000000, [0, 0, 1, 2, 1]⟩, ⟨6960582377305069, 1000000000000000, [0, 0, 1, 4, 1]⟩],
  [⟨5966213466261489, 10000000000000000, [1, 1, 0, 0, 0]⟩, ⟨-5966213466261488, 1000000000000000, [1, 1, 0, 0, 2]⟩, ⟨6960582377305069, 1000000000000000, [1, 1, 0, 0, 4]⟩],
  [⟨5966213466261489, 10000000000000000, [1, 0, 1, 0, 0]⟩, ⟨-5966213466261488, 1000000000000000, [1, 0, 1, 0, 2]⟩, ⟨6960582377305069, 1000000000000000, [1, 0, 1, 0, 4]⟩],
  [⟨5966213466261489, 10000000000000000, [0, 1, 1, 0, 0]⟩, ⟨-5966213466261488, 1000000000000000, [0, 1, 1, 0, 2]⟩, ⟨6960582377305069, 1000000000000000, [0, 1, 1, 0, 4]⟩],
  [⟨5966213466261489, 10000000000000000, [1, 0, 0, 1, 0]⟩, ⟨-5966213466261488, 1000000000000000, [1, 0, 0, 1, 2]⟩, ⟨6960582377305069, 1000000000000000, [1, 0, 0, 1, 4]⟩],
  [⟨5966213466261489, 10000000000000000, [0, 1, 0, 1, 0]⟩, ⟨-5966213466261488, 1000000000000000, [0, 1, 0, 1, 2]⟩, ⟨6960582377305069, 1000000000000000, [0, 1, 0, 1, 4]⟩],
  [⟨5966213466261489, 10000000000000000, [0, 0, 1, 1, 0]⟩, ⟨-5966213466261488, 1000000000000000, [0, 0, 1, 1, 2]⟩, ⟨6960582377305069, 1000000000000000, [0, 0, 1, 1, 4]⟩],
  [⟨1148198316929614, 1000000000000000, [0, 0, 1, 1, 1]⟩, ⟨-3444594950788842, 1000000000000000, [0, 2, 1, 1, 1]⟩, ⟨-3444594950788842, 1000000000000000, [2, 0, 1, 1, 1]⟩, ⟨1033378485236653, 100000000000000, [2, 2, 1, 1, 1]⟩],
  [⟨1148198316929614, 1000000000000000, [0, 1, 0, 1, 1]⟩, ⟨-3444594950788842, 1000000000000000, [0, 1, 2, 1, 1]⟩, ⟨-3444594950788842, 1000000000000000, [2, 1, 0, 1, 1]⟩, ⟨1033378485236653, 100000000000000, [2, 1, 2, 1, 1]⟩],
  [⟨1148198316929614, 1000000000000000, [1, 0, 0, 1, 1]⟩, ⟨-3444594950788842, 1000000000000000, [1, 0, 2, 1, 1]⟩, ⟨-3444594950788842, 1000000000000000, [1, 2, 0, 1, 1]⟩, ⟨1033378485236653, 100000000000000, [1, 2, 2, 1, 1]⟩],
  [⟨1148198316929614, 1000000000000000, [0, 1, 1, 0, 1]⟩, ⟨-3444594950788842, 1000000000000000, [0, 1, 1, 2, 1]⟩, ⟨-3444594950788842, 1000000000000000, [2, 1, 1, 0, 1]⟩, ⟨1033378485236653, 100000000000000, [2, 1, 1, 2, 1]⟩],
  [⟨1148198316929614, 1000000000000000, [1, 0, 1, 0, 1]⟩, ⟨-3444594950788842, 1000000000000000, [1, 0, 1, 2, 1]⟩, ⟨-3444594950788842, 1000000000000000, [1, 2, 1, 0, 1]⟩, ⟨1033378485236653, 100000000000000, [1, 2, 1, 2, 1]⟩],
  [⟨1148198316929614, 1000000000000000, [1, 1, 0, 0, 1]⟩, ⟨-3444594950788842, 1000000000000000, [1, 1, 0, 2, 1]⟩, ⟨-3444594950788842, 1000000000000000, [1, 1, 2, 0, 1]⟩, ⟨1033378485236653, 100000000000000, [1, 1, 2, 2, 1]⟩],
  [⟨1148198316929614, 1000000000000000, [0, 1, 1, 1, 0]⟩, ⟨-3444594950788842, 1000000000000000, [0, 1, 1, 1, 2]⟩, ⟨-3444594950788842, 1000000000000000, [2, 1, 1, 1, 0]⟩, ⟨1033378485236653, 100000000000000, [2, 1, 1, 1, 2]⟩],
  [⟨1148198316929614, 1000000000000000, [1, 0, 1, 1, 0]⟩, ⟨-3444594950788842, 1000000000000000, [1, 0, 1, 1, 2]⟩, ⟨-3444594950788842, 1000000000000000, [1, 2, 1, 1, 0]⟩, ⟨1033378485236653, 100000000000000, [1, 2, 1, 1, 2]⟩],
  [⟨1148198316929614, 1000000000000000, [1, 1, 0, 1, 0]⟩, ⟨-3444594950788842, 1000000000000000, [1, 1, 0, 1, 2]⟩, ⟨-3444594950788842, 1000000000000000, [1, 1, 2, 1, 0]⟩, ⟨1033378485236653, 100000000000000, [1, 1, 2, 1, 2]⟩],
  [⟨1148198316929614, 1000000000000000, [1, 1, 1, 0, 0]⟩, ⟨-3444594950788842, 1000000000000000, [1, 1, 1, 0, 2]⟩, ⟨-3444594950788842, 1000000000000000, [1, 1, 1, 2, 0]⟩, ⟨1033378485236653, 100000000000000, [1, 1, 1, 2, 2]⟩],
  [⟨-6314046840181025, 1000000000000000, [1, 1, 1, 1, 1]⟩, ⟨1052341140030171, 100000000000000, [3, 1, 1, 1, 1]⟩],
  [⟨-6314046840181025, 1000000000000000, [1, 1, 1, 1, 1]⟩, ⟨1052341140030171, 100000000000000, [1, 3, 1, 1, 1]⟩],
  [⟨-6314046840181025, 1000000000000000, [1, 1, 1, 1, 1]⟩, ⟨1052341140030171, 100000000000000, [1, 1, 3, 1, 1]⟩],
  [⟨-6314046840181025, 1000000000000000, [1, 1, 1, 1, 1]⟩, ⟨1052341140030171, 100000000000000, [1, 1, 1, 3, 1]⟩],
  [⟨-6314046840181025, 1000000000000000, [1, 1, 1, 1, 1]⟩, ⟨1052341140030171, 100000000000000, [1, 1, 1, 1, 3]⟩],
  [⟨1033378485236654, 1000000000000000, [0, 1, 1, 1, 0]⟩, ⟨-1033378485236654, 100000000000000, [2, 1, 1, 1, 0]⟩, ⟨1205608232776096, 100000000000000, [4, 1, 1, 1, 0]⟩],
  [⟨1033378485236654, 1000000000000000, [1, 0, 1, 1, 0]⟩, ⟨-1033378485236654, 100000000000000, [1, 2, 1, 1, 0]⟩, ⟨1205608232776096, 100000000000000, [1, 4, 1, 1, 0]⟩],
  [⟨1033378485236654, 1000000000000000, [1, 1, 0, 1, 0]⟩, ⟨-1033378485236654, 100000000000000, [1, 1, 2, 1, 0]⟩, ⟨1205608232776096, 100000000000000, [1, 1, 4, 1, 0]⟩],
  [⟨1033378485236654, 1000000000000000, [1, 1, 1, 0, 0]⟩, ⟨-1033378485236654, 100000000000000, [1, 1, 1, 2, 0]⟩, ⟨1205608232776096, 100000000000000, [1, 1, 1, 4, 0]⟩],
  [⟨1033378485236654, 1000000000000000, [0, 1, 1, 0, 1]⟩, ⟨-1033378485236654, 100000000000000, [2, 1, 1, 0, 1]⟩, ⟨1205608232776096, 100000000000000, [4, 1, 1, 0, 1]⟩],
  [⟨1033378485236654, 1000000000000000, [1, 0, 1, 0, 1]⟩, ⟨-1033378485236654, 100000000000000, [1, 2, 1, 0, 1]⟩, ⟨1205608232776096, 100000000000000, [1, 4, 1, 0, 1]⟩],
  [⟨1033378485236654, 1000000000000000, [1, 1, 0, 0, 1]⟩, ⟨-1033378485236654, 100000000000000, [1, 1, 2, 0, 1]⟩, ⟨1205608232776096, 100000000000000, [1, 1, 4, 0, 1]⟩],
  [⟨1033378485236654, 1000000000000000, [0, 1, 0, 1, 1]⟩, ⟨-1033378485236654, 100000000000000, [2, 1, 0, 1, 1]⟩, ⟨1205608232776096, 100000000000000, [4, 1, 0, 1, 1]⟩],
  [⟨1033378485236654, 1000000000000000, [1, 0, 0, 1, 1]⟩, ⟨-1033378485236654, 100000000000000, [1, 2, 0, 1, 1]⟩, ⟨1205608232776096, 100000000000000, [1, 4, 0, 1, 1]⟩],
  [⟨1033378485236654, 1000000000000000, [0, 0, 1, 1, 1]⟩, ⟨-1033378485236654, 100000000000000, [2, 0, 1, 1, 1]⟩, ⟨1205608232776096, 100000000000000, [4, 0, 1, 1, 1]⟩],
  [⟨1033378485236654, 1000000000000000, [0, 0, 1, 1, 1]⟩, ⟨-1033378485236654, 100000000000000, [0, 2, 1, 1, 1]⟩, ⟨1205608232776096, 100000000000000, [0, 4, 1, 1, 1]⟩],
  [⟨1033378485236654, 1000000000000000, [1, 0, 0, 1, 1]⟩, ⟨-1033378485236654, 100000000000000, [1, 0, 2, 1, 1]⟩, ⟨1205608232776096, 100000000000000, [1, 0, 4, 1, 1]⟩],
  [⟨1033378485236654, 1000000000000000, [0, 1, 0, 1, 1]⟩, ⟨-1033378485236654, 100000000000000, [0, 1, 2, 1, 1]⟩, ⟨1205608232776096, 100000000000000, [0, 1, 4, 1, 1]⟩],
  [⟨1033378485236654, 1000000000000000, [1, 1, 0, 0, 1]⟩, ⟨-1033378485236654, 100000000000000, [1, 1, 0, 2, 1]⟩, ⟨1205608232776096, 100000000000000, [1, 1, 0, 4, 1]⟩],
  [⟨1033378485236654, 1000000000000000, [1, 0, 1, 0, 1]⟩, ⟨-1033378485236654, 100000000000000, [1, 0, 1, 2, 1]⟩, ⟨1205608232776096, 100000000000000, [1, 0, 1, 4, 1]⟩],
  [⟨1033378485236654, 1000000000000000, [0, 1, 1, 0, 1]⟩, ⟨-1033378485236654, 100000000000000, [0, 1, 1, 2, 1]⟩, ⟨1205608232776096, 100000000000000, [0, 1, 1, 4, 1]⟩],
  [⟨1033378485236654, 1000000000000000, [1, 1, 1, 0, 0]⟩, ⟨-1033378485236654, 100000000000000, [1, 1, 1, 0, 2]⟩, ⟨1205608232776096, 100000000000000, [1, 1, 1, 0, 4]⟩],
  [⟨1033378485236654, 1000000000000000, [1, 1, 0, 1, 0]⟩, ⟨-1033378485236654, 100000000000000, [1, 1, 0, 1, 2]⟩, ⟨1205608232776096, 100000000000000, [1, 1, 0, 1, 4]⟩],
  [⟨1033378485236654, 1000000000000000, [1, 0, 1, 1, 0]⟩, ⟨-1033378485236654, 100000000000000, [1, 0, 1, 1, 2]⟩, ⟨1205608232776096, 100000000000000, [1, 0, 1, 1, 4]⟩],
  [⟨1033378485236654, 1000000000000000, [0, 1, 1, 1, 0]⟩, ⟨-1033378485236654, 100000000000000, [0, 1, 1, 1, 2]⟩, ⟨1205608232776096, 100000000000000, [0, 1, 1, 1, 4]⟩],
  [⟨1789864039878446, 1000000000000000, [0, 1, 1, 1, 1]⟩, ⟨-1789864039878447, 100000000000000, [2, 1, 1, 1, 1]⟩, ⟨2088174713191521, 100000000000000, [4, 1, 1, 1, 1]⟩],
  [⟨1789864039878446, 1000000000000000, [1, 0, 1, 1, 1]⟩, ⟨-1789864039878447, 100000000000000, [1, 2, 1, 1, 1]⟩, ⟨2088174713191521, 100000000000000, [1, 4, 1, 1, 1]⟩],
  [⟨1789864039878446, 1000000000000000, [1, 1, 0, 1, 1]⟩, ⟨-1789864039878447, 100000000000000, [1, 1, 2, 1, 1]⟩, ⟨2088174713191521, 100000000000000, [1, 1, 4, 1, 1]⟩],
  [⟨1789864039878446, 1000000000000000, [1, 1, 1, 0, 1]⟩, ⟨-1789864039878447, 100000000000000, [1, 1, 1, 2, 1]⟩, ⟨2088174713191521, 100000000000000, [1, 1, 1, 4, 1]⟩],
  [⟨1789864039878446, 1000000000000000, [1, 1, 1, 1, 0]⟩, ⟨-1789864039878447, 100000000000000, [1, 1, 1, 1, 2]⟩, ⟨2088174713191521, 100000000000000, [1, 1, 1, 1, 4]⟩]]

/-- computeDerivativeMatrices.py:6745-7836. -/
def nodalSer5p1 : List Poly := [
  [⟨3125, 100000, [0, 0, 0, 0, 0]⟩, ⟨-3125, 100000, [0, 0, 0, 0, 1]⟩, ⟨-3125, 100000, [0, 0, 0, 1, 0]⟩, ⟨3125, 100000, [0, 0, 0, 1, 1]⟩, ⟨-3125, 100000, [0, 0, 1, 0, 0]⟩, ⟨3125, 100000, [0, 0, 1, 0, 1]⟩, ⟨3125, 100000, [0, 0, 1, 1, 0]⟩, ⟨-3125, 100000, [0, 0, 1, 1, 1]⟩, ⟨-3125, 100000, [0, 1, 0, 0, 0]⟩, ⟨3125, 100000, [0, 1, 0, 0, 1]⟩, ⟨3125, 100000, [0, 1, 0, 1, 0]⟩, ⟨-3125, 100000, [0, 1, 0, 1, 1]⟩, ⟨3125, 100000, [0, 1, 1, 0, 0]⟩, ⟨-3125, 100000, [0, 1, 1, 0, 1]⟩, ⟨-3125, 100000, [0, 1, 1, 1, 0]⟩, ⟨3125, 100000, [0, 1, 1, 1, 1]⟩, ⟨-3125, 100000, [1, 0, 0, 0, 0]⟩, ⟨3125, 100000, [1, 0, 0, 0, 1]⟩, ⟨3125, 100000, [1, 0, 0, 1, 0]⟩, ⟨-3125, 100000, [1, 0, 0, 1, 1]⟩, ⟨3125, 100000, [1, 0, 1, 0, 0]⟩, ⟨-3125, 100000, [1, 0, 1, 0, 1]⟩, ⟨-3125, 100000, [1, 0, 1, 1, 0]⟩, ⟨3125, 100000, [1, 0, 1, 1, 1]⟩, ⟨3125, 100000, [1, 1, 0, 0, 0]⟩, ⟨-3125, 100000, [1, 1, 0, 0, 1]⟩, ⟨-3125, 100000, [1, 1, 0, 1, 0]⟩, ⟨3125, 100000, [1, 1, 0, 1, 1]⟩, ⟨-3125, 100000, [1, 1, 1, 0, 0]⟩, ⟨3125, 100000, [1, 1, 1, 0, 1]⟩, ⟨3125, 100000, [1, 1, 1, 1, 0]⟩, ⟨-3125, 100000, [1, 1, 1, 1, 1]⟩],
  [⟨3125, 100000, [0, 0, 0, 0, 0]⟩, ⟨-3125, 100000, [0, 0, 0, 0, 1]⟩, ⟨-3125, 100000, [0, 0, 0, 1, 0]⟩, ⟨3125, 100000, [0, 0, 0, 1, 1]⟩, ⟨-3125, 100000, [0, 0, 1, 0, 0]⟩, ⟨3125, 100000, [0, 0, 1, 0, 1]⟩, ⟨3125, 100000, [0, 0, 1, 1, 0]⟩, ⟨-3125, 100000, [0, 0, 1, 1, 1]⟩, ⟨-3125, 100000, [0, 1, 0, 0, 0]⟩, ⟨3125, 100000, [0, 1, 0, 0, 1]⟩, ⟨3125, 100000, [0, 1, 0, 1, 0]⟩, ⟨-3125, 100000, [0, 1, 0, 1, 1]⟩, ⟨3125, 100000, [0, 1, 1, 0, 0]⟩, ⟨-3125, 100000, [0, 1, 1, 0, 1]⟩, ⟨-3125, 100000, [0, 1, 1, 1, 0]⟩, ⟨3125, 100000, [0, 1, 1, 1, 1]⟩, ⟨3125, 100000, [1, 0, 0, 0, 0]⟩, ⟨-3125, 100000, [1, 0, 0, 0, 1]⟩, ⟨-3125, 100000, [1, 0, 0, 1, 0]⟩, ⟨3125, 100000, [1, 0, 0, 1, 1]⟩, ⟨-3125, 100000, [1, 0, 1, 0, 0]⟩, ⟨3125, 100000, [1, 0, 1, 0, 1]⟩, ⟨3125, 100000, [1, 0, 1, 1, 0]⟩, ⟨-3125, 100000, [1, 0, 1, 1, 1]⟩, ⟨-3125, 100000, [1, 1, 0, 0, 0]⟩, ⟨3125, 100000, [1, 1, 0, 0, 1]⟩, ⟨3125, 100000, [1, 1, 0, 1, 0]⟩, ⟨-3125, 100000, [1, 1, 0, 1, 1]⟩, ⟨3125, 100000, [1, 1, 1, 0, 0]⟩, ⟨-3125, 100000, [1, 1, 1, 0, 1]⟩, ⟨-3125, 100000, [1, 1, 1, 1, 0]⟩, ⟨3125, 100000, [1, 1, 1, 1, 1]⟩],
  [⟨3125, 100000, [0, 0, 0, 0, 0]⟩, ⟨-3125, 100000, [0, 0, 0, 0, 1]⟩, ⟨-3125, 100000, [0, 0, 0, 1, 0]⟩, ⟨3125, 100000, [0, 0, 0, 1, 1]⟩, ⟨-3125, 100000, [0, 0, 1, 0, 0]⟩, ⟨3125, 100000, [0, 0, 1, 0, 1]⟩, ⟨3125, 100000, [0, 0, 1, 1, 0]⟩, ⟨-3125, 100000, [0, 0, 1, 1, 1]⟩, ⟨3125, 100000, [0, 1, 0, 0, 0]⟩, ⟨-3125, 100000, [0, 1, 0, 0, 1]⟩, ⟨-3125, 100000, [0, 1, 0, 1, 0]⟩, ⟨3125, 100000, [0, 1, 0, 1, 1]⟩, ⟨-3125, 100000, [0, 1, 1, 0, 0]⟩, ⟨3125, 100000, [0, 1, 1, 0, 1]⟩, ⟨3125, 100000, [0, 1, 1, 1, 0]⟩, ⟨-3125, 100000, [0, 1, 1, 1, 1]⟩, ⟨-3125, 100000, [1, 0, 0, 0, 0]⟩, ⟨3125, 100000, [1, 0, 0, 0, 1]⟩, ⟨3125, 100000, [1, 0, 0, 1, 0]⟩, ⟨-3125, 100000, [1, 0, 0, 1, 1]⟩, ⟨3125, 100000, [1, 0, 1, 0, 0]⟩, ⟨-3125, 100000, [1, 0, 1, 0, 1]⟩, ⟨-3125, 100000, [1, 0, 1, 1, 0]⟩, ⟨3125, 100000, [1, 0, 1, 1, 1]⟩, ⟨-3125, 100000, [1, 1, 0, 0, 0]⟩, ⟨3125, 100000, [1, 1, 0, 0, 1]⟩, ⟨3125, 100000, [1, 1, 0, 1, 0]⟩, ⟨-3125, 100000, [1, 1, 0, 1, 1]⟩, ⟨3125, 100000, [1, 1, 1, 0, 0]⟩, ⟨-3125, 100000, [1, 1, 1, 0, 1]⟩, ⟨-3125, 100000, [1, 1, 1, 1, 0]⟩, ⟨3125, 100000, [1, 1, 1, 1, 1]⟩],
  [⟨3125, 100000, [0, 0, 0, 0, 0]⟩, ⟨-3125, 100000, [0, 0, 0, 0, 1]⟩, ⟨-3125, 100000, [0, 0, 0, 1, 0]⟩, ⟨3125, 100000, [0, 0, 0, 1, 1]⟩, ⟨-3125, 100000, [0, 0, 1, 0, 0]⟩, ⟨3125, 100000, [0, 0, 1, 0, 1]⟩, ⟨3125, 100000, [0, 0, 1, 1, 0]⟩, ⟨-3125, 100000, [0, 0, 1, 1, 1]⟩, ⟨3125, 100000, [0, 1, 0, 0, 0]⟩, ⟨-3125, 100000, [0, 1, 0, 0, 1]⟩, ⟨-3125, 100000, [0, 1, 0, 1, 0]⟩, ⟨3125, 100000, [0, 1, 0, 1, 1]⟩, ⟨-3125, 100000, [0, 1, 1, 0, 0]⟩, ⟨3125, 100000, [0, 1, 1, 0, 1]⟩, ⟨3125, 100000, [0, 1, 1, 1, 0]⟩, ⟨-3125, 100000, [0, 1, 1, 1, 1]⟩, ⟨3125, 100000, [1, 0, 0, 0, 0]⟩, ⟨-3125, 100000, [1, 0, 0, 0, 1]⟩, ⟨-3125, 100000, [1, 0, 0, 1, 0]⟩, ⟨3125, 100000, [1, 0, 0, 1, 1]⟩, ⟨-3125, 100000, [1, 0, 1, 0, 0]⟩, ⟨3125, 100000, [1, 0, 1, 0, 1]⟩, ⟨3125, 100000, [1, 0, 1, 1, 0]⟩, ⟨-3125, 100000, [1, 0, 1, 1, 1]⟩, ⟨3125, 100000, [1, 1, 0, 0, 0]⟩, ⟨-3125, 100000, [1, 1, 0, 0, 1]⟩, ⟨-3125, 100000, [1, 1, 0, 1, 0]⟩, ⟨3125, 100000, [1, 1, 0, 1, 1]⟩, ⟨-3125, 100000, [1, 1, 1, 0, 0]⟩, ⟨3125, 100000, [1, 1, 1, 0, 1]⟩, ⟨3125, 100000, [1, 1, 1, 1, 0]⟩, ⟨-3125, 100000, [1, 1, 1, 1, 1]⟩],
  [⟨3125, 100000, [0, 0, 0, 0, 0]⟩, ⟨-3125, 100000, [0, 0, 0, 0, 1]⟩, ⟨-3125, 100000, [0, 0, 0, 1, 0]⟩, ⟨3125, 100000, [0, 0, 0, 1, 1]⟩, ⟨3125, 100000, [0, 0, 1, 0, 0]⟩, ⟨-3125, 100000, [0, 0, 1, 0, 1]⟩, ⟨-3125, 100000, [0, 0, 1, 1, 0]⟩, ⟨3125, 100000, [0, 0, 1, 1, 1]⟩, ⟨-3125, 100000, [0, 1, 0, 0, 0]⟩, ⟨3125, 100000, [0, 1, 0, 0, 1]⟩, ⟨3125, 100000, [0, 1, 0, 1, 0]⟩, ⟨-3125, 100000, [0, 1, 0, 1, 1]⟩, ⟨-3125, 100000, [0, 1, 1, 0, 0]⟩, ⟨3125, 100000, [0, 1, 1, 0, 1]⟩, ⟨3125, 100000, [0, 1, 1, 1, 0]⟩, ⟨-3125, 100000, [0, 1, 1, 1, 1]⟩, ⟨-3125, 100000, [1, 0, 0, 0, 0]⟩, ⟨3125, 100000, [1, 0, 0, 0, 1]⟩, ⟨3125, 100000, [1, 0, 0, 1, 0]⟩, ⟨-3125, 100000, [1, 0, 0, 1, 1]⟩, ⟨-3125, 100000, [1, 0, 1, 0, 0]⟩, ⟨3125, 100000, [1, 0, 1, 0, 1]⟩, ⟨3125, 100000, [1, 0, 1, 1, 0]⟩, ⟨-3125, 100000, [1, 0, 1, 1, 1]⟩, ⟨3125, 100000, [1, 1, 0, 0, 0]⟩, ⟨-3125, 100000, [1, 1, 0, 0, 1]⟩, ⟨-3125, 100000, [1, 1, 0, 1, 0]⟩, ⟨3125, 100000, [1, 1, 0, 1, 1]⟩, ⟨3125, 100000, [1, 1, 1, 0, 0]⟩, ⟨-3125, 100000, [1, 1, 1, 0, 1]⟩, ⟨-3125, 100000, [1, 1, 1, 1, 0]⟩, ⟨3125, 100000, [1, 1, 1, 1, 1]⟩],
  [⟨3125, 100000, [0, 0, 0, 0, 0]⟩, ⟨-3125, 100000, [0, 0, 0, 0, 1]⟩, ⟨-3125, 100000, [0, 0, 0, 1, 0]⟩, ⟨3125, 100000, [0, 0, 0, 1, 1]⟩, ⟨3125, 100000, [0, 0, 1, 0, 0]⟩, ⟨-3125, 100000, [0, 0, 1, 0, 1]⟩, ⟨-3125, 100000, [0, 0, 1, 1, 0]⟩, ⟨3125, 100000, [0, 0, 1, 1, 1]⟩, ⟨-3125, 100000, [0, 1, 0, 0, 0]⟩, ⟨3125, 100000, [0, 1, 0, 0, 1]⟩, ⟨3125, 100000, [0, 1, 0, 1, 0]⟩, ⟨-3125, 100000, [0, 1, 0, 1, 1]⟩, ⟨-3125, 100000, [0, 1, 1, 0, 0]⟩, ⟨3125, 100000, [0, 1, 1, 0, 1]⟩, ⟨3125, 100000, [0, 1, 1, 1, 0]⟩, ⟨-3125, 100000, [0, 1, 1, 1, 1]⟩, ⟨3125, 100000, [1, 0, 0, 0, 0]⟩, ⟨-3125, 100000, [1, 0, 0, 0, 1]⟩, ⟨-3125, 100000, [1, 0, 0, 1, 0]⟩, ⟨3125, 100000, [1, 0, 0, 1, 1]⟩, ⟨3125, 100000, [1, 0, 1, 0, 0]⟩, ⟨-3125, 100000, [1, 0, 1, 0, 1]⟩, ⟨-3125, 100000, [1, 0, 1, 1, 0]⟩, ⟨3125, 100000, [1, 0, 1, 1, 1]⟩, ⟨-3125, 100000, [1, 1, 0, 0, 0]⟩, ⟨3125, 100000, [1, 1, 0, 0, 1]⟩, ⟨3125, 100000, [1, 1, 0, 1, 0]⟩, ⟨-3125, 100000, [1, 1, 0, 1, 1]⟩, ⟨-3125, 100000, [1, 1, 1, 0, 0]⟩, ⟨3125, 100000, [1, 1, 1, 0, 1]⟩, ⟨3125, 100000, [1, 1, 1, 1, 0]⟩, ⟨-3125, 100000, [1, 1, 1, 1, 1]⟩],
  [⟨3125, 100000, [0, 0, 0, 0, 0]⟩, ⟨-3125, 100000, [0, 0, 0, 0, 1]⟩, ⟨-3125, 100000, [0, 0, 0, 1, 0]⟩, ⟨3125, 100000, [0, 0, 0, 1, 1]⟩, ⟨3125, 100000, [0, 0, 1, 0, 0]⟩, ⟨-3125, 100000, [0, 0, 1, 0, 1]⟩, ⟨-3125, 100000, [0, 0, 1, 1, 0]⟩, ⟨3125, 100000, [0, 0, 1, 1, 1]⟩, ⟨3125, 100000, [0, 1, 0, 0, 0]⟩, ⟨-3125, 100000, [0, 1, 0, 0, 1]⟩, ⟨-3125, 100000, [0, 1, 0, 1, 0]⟩, ⟨3125, 100000, [0, 1, 0, 1, 1]⟩, ⟨3125, 100000, [0, 1, 1, 0, 0]⟩, ⟨-3125, 100000, [0, 1, 1, 0, 1]⟩, ⟨-3125, 100000, [0, 1, 1, 1, 0]⟩, ⟨3125, 100000, [0, 1, 1, 1, 1]⟩, ⟨-3125, 100000, [1, 0, 0, 0, 0]⟩, ⟨3125, 100000, [1, 0, 0, 0, 1]⟩, ⟨3125, 100000, [1, 0, 0, 1, 0]⟩, ⟨-3125, 100000, [1, 0, 0, 1, 1]⟩, ⟨-3125, 100000, [1, 0, 1, 0, 0]⟩, ⟨3125, 100000, [1, 0, 1, 0, 1]⟩, ⟨3125, 100000, [1, 0, 1, 1, 0]⟩, ⟨-3125, 100000, [1, 0, 1, 1, 1]⟩, ⟨-3125, 100000, [1, 1, 0, 0, 0]⟩, ⟨3125, 100000, [1, 1, 0, 0, 1]⟩, ⟨3125, 100000, [1, 1, 0, 1, 0]⟩, ⟨-3125, 100000, [1, 1, 0, 1, 1]⟩, ⟨-3125, 100000, [1, 1, 1, 0, 0]⟩, ⟨3125, 100000, [1, 1, 1, 0, 1]⟩, ⟨3125, 100000, [1, 1, 1, 1, 0]⟩, ⟨-3125, 100000, [1, 1, 1, 1, 1]⟩],
  [⟨3125, 100000, [0, 0, 0, 0, 0]⟩, ⟨-3125, 100000, [0, 0, 0, 0, 1]⟩, ⟨-3125, 100000, [0, 0, 0, 1, 0]⟩, ⟨3125, 100000, [0, 0, 0, 1, 1]⟩, ⟨3125, 100000, [0, 0, 1, 0, 0]⟩, ⟨-3125, 100000, [0, 0, 1, 0, 1]⟩, ⟨-3125, 100000, [0, 0, 1, 1, 0]⟩, ⟨3125, 100000, [0, 0, 1, 1, 1]⟩, ⟨3125, 100000, [0, 1, 0, 0, 0]⟩, ⟨-3125, 100000, [0, 1, 0, 0, 1]⟩, ⟨-3125, 100000, [0, 1, 0, 1, 0]⟩, ⟨3125, 100000, [0, 1, 0, 1, 1]⟩, ⟨3125, 100000, [0, 1, 1, 0, 0]⟩, ⟨-3125, 100000, [0, 1, 1, 0, 1]⟩, ⟨-3125, 100000, [0, 1, 1, 1, 0]⟩, ⟨3125, 100000, [0, 1, 1, 1, 1]⟩, ⟨3125, 100000, [1, 0, 0, 0, 0]⟩, ⟨-3125, 100000, [1, 0, 0, 0, 1]⟩, ⟨-3125, 100000, [1, 0, 0, 1, 0]⟩, ⟨3125, 100000, [1, 0, 0, 1, 1]⟩, ⟨3125, 100000, [1, 0, 1, 0, 0]⟩, ⟨-3125, 100000, [1, 0, 1, 0, 1]⟩, ⟨-3125, 100000, [1, 0, 1, 1, 0]⟩, ⟨3125, 100000, [1, 0, 1, 1, 1]⟩, ⟨3125, 100000, [1, 1, 0, 0, 0]⟩, ⟨-3125, 100000, [1, 1, 0, 0, 1]⟩, ⟨-3125, 100000, [1, 1, 0, 1, 0]⟩, ⟨3125, 100000, [1, 1, 0, 1, 1]⟩, ⟨3125, 100000, [1, 1, 1, 0, 0]⟩, ⟨-3125, 100000, [1, 1, 1, 0, 1]⟩, ⟨-3125, 100000, [1, 1, 1, 1, 0]⟩, ⟨3125, 100000, [1, 1, 1, 1, 1]⟩],
  [⟨3125, 100000, [0, 0, 0, 0, 0]⟩, ⟨-3125, 100000, [0, 0, 0, 0, 1]⟩, ⟨3125, 100000, [0, 0, 0, 1, 0]⟩, ⟨-3125, 100000, [0, 0, 0, 1, 1]⟩, ⟨-3125, 100000, [0, 0, 1, 0, 0]⟩, ⟨3125, 100000, [0, 0, 1, 0, 1]⟩, ⟨-3125, 100000, [0, 0, 1, 1, 0]⟩, ⟨3125, 100000, [0, 0, 1, 1, 1]⟩, ⟨-3125, 100000, [0, 1, 0, 0, 0]⟩, ⟨3125, 100000, [0, 1, 0, 0, 1]⟩, ⟨-3125, 100000, [0, 1, 0, 1, 0]⟩, ⟨3125, 100000, [0, 1, 0, 1, 1]⟩, ⟨3125, 100000, [0, 1, 1, 0, 0]⟩, ⟨-3125, 100000, [0, 1, 1, 0, 1]⟩, ⟨3125, 100000, [0, 1, 1, 1, 0]⟩, ⟨-3125, 100000, [0, 1, 1, 1, 1]⟩, ⟨-3125, 100000, [1, 0, 0, 0, 0]⟩, ⟨3125, 100000, [1, 0, 0, 0, 1]⟩, ⟨-3125, 100000, [1, 0, 0, 1, 0]⟩, ⟨3125, 100000, [1, 0, 0, 1, 1]⟩, ⟨3125, 100000, [1, 0, 1, 0, 0]⟩, ⟨-3125, 100000, [1, 0, 1, 0, 1]⟩, ⟨3125, 100000, [1, 0, 1, 1, 0]⟩, ⟨-3125, 100000, [1, 0, 1, 1, 1]⟩, ⟨3125, 100000, [1, 1, 0, 0, 0]⟩, ⟨-3125, 100000, [1, 1, 0, 0, 1]⟩, ⟨3125, 100000, [1, 1, 0, 1, 0]⟩, ⟨-3125, 100000, [1, 1, 0, 1, 1]⟩, ⟨-3125, 100000, [1, 1, 1, 0, 0]⟩, ⟨3125, 100000, [1, 1, 1, 0, 1]⟩, ⟨-3125, 100000, [1, 1, 1, 1, 0]⟩, ⟨3125, 100000, [1, 1, 1, 1, 1]⟩],
  [⟨3125, 100000, [0, 0, 0, 0, 0]⟩, ⟨-3125, 100000, [0, 0, 0, 0, 1]⟩, ⟨3125, 100000, [0, 0, 0, 1, 0]⟩, ⟨-3125, 100000, [0, 0, 0, 1, 1]⟩, ⟨-3125, 100000, [0, 0, 1, 0, 0]⟩, ⟨3125, 100000, [0, 0, 1, 0, 1]⟩, ⟨-3125, 100000, [0, 0, 1, 1, 0]⟩, ⟨3125, 100000, [0, 0, 1, 1, 1]⟩, ⟨-3125, 100000, [0, 1, 0, 0, 0]⟩, ⟨3125, 100000, [0, 1, 0, 0, 1]⟩, ⟨-3125, 100000, [0, 1, 0, 1, 0]⟩, ⟨3125, 100000, [0, 1, 0, 1, 1]⟩, ⟨3125, 100000, [0, 1, 1, 0, 0]⟩, ⟨-3125, 100000, [0, 1, 1, 0, 1]⟩, ⟨3125, 100000, [0, 1, 1, 1, 0]⟩, ⟨-3125, 100000, [0, 1, 1, 1, 1]⟩, ⟨3125, 100000, [1, 0, 0, 0, 0]⟩, ⟨-3125, 100000, [1, 0, 0, 0, 1]⟩, ⟨3125, 100000, [1, 0, 0, 1, 0]⟩, ⟨-3125, 100000, [1, 0, 0, 1, 1]⟩, ⟨-3125, 100000, [1, 0, 1, 0, 0]⟩, ⟨3125, 100000, [1, 0, 1, 0, 1]⟩, ⟨-3125, 100000, [1, 0, 1, 1, 0]⟩, ⟨3125, 100000, [1, 0, 1, 1, 1]⟩, ⟨-3125, 100000, [1, 1, 0, 0, 0]⟩, ⟨3125, 100000, [1, 1, 0, 0, 1]⟩, ⟨-3125, 100000, [1, 1, 0, 1, 0]⟩, ⟨3125, 100000, [1, 1, 0, 1, 1]⟩, ⟨3125, 100000, [1, 1, 1, 0, 0]⟩, ⟨-3125, 100000, [1, 1, 1, 0, 1]⟩, ⟨3125, 100000, [1, 1, 1, 1, 0]⟩, ⟨-3125, 100000, [1, 1, 1, 1, 1]⟩],
  [⟨3125, 100000, [0, 0, 0, 0, 0]⟩, ⟨-3125, 100000, [0, 0, 0, 0, 1]⟩, ⟨3125, 100000, [0, 0, 0, 1, 0]⟩, ⟨-3125, 100000, [0, 0, 0, 1, 1]⟩, ⟨-3125, 100000, [0, 0, 1, 0, 0]⟩, ⟨3125, 100000, [0, 0, 1, 0, 1]⟩, ⟨-3125, 100000, [0, 0, 1, 1, 0]⟩, ⟨3125, 100000, [0, 0, 1, 1, 1]⟩, ⟨3125, 100000, [0, 1, 0, 0, 0]⟩, ⟨-3125, 100000, [0, 1, 0, 0, 1]⟩, ⟨3125, 100000, [0, 1, 0, 1, 0]⟩, ⟨-3125, 100000, [0, 1, 0, 1, 1]⟩, ⟨-3125, 100000, [0, 1, 1, 0, 0]⟩, ⟨3125, 100000, [0, 1, 1, 0, 1]⟩, ⟨-3125, 100000, [0, 1, 1, 1, 0]⟩, ⟨3125, 100000, [0, 1, 1, 1, 1]⟩, ⟨-3125, 100000, [1, 0, 0, 0, 0]⟩, ⟨3125, 100000, [1, 0, 0, 0, 1]⟩, ⟨-3125, 100000, [1, 0, 0, 1, 0]⟩, ⟨3125, 100000, [1, 0, 0, 1, 1]⟩, ⟨3125, 100000, [1, 0, 1, 0, 0]⟩, ⟨-3125, 100000, [1, 0, 1, 0, 1]⟩, ⟨3125, 100000, [1, 0, 1, 1, 0]⟩, ⟨-3125, 100000, [1, 0, 1, 1, 1]⟩, ⟨-3125, 100000, [1, 1, 0, 0, 0]⟩, ⟨3125, 100000, [1, 1, 0, 0, 1]⟩, ⟨-3125, 100000, [1, 1, 0, 1, 0]⟩, ⟨3125, 100000, [1, 1, 0, 1, 1]⟩, ⟨3125, 100000, [1, 1, 1, 0, 0]⟩, ⟨-3125, 100000, [1, 1, 1, 0, 1]⟩, ⟨3125, 100000, [1, 1, 1, 1, 0]⟩, ⟨-3125, 100000, [1, 1, 1, 1, 1]⟩],
  [⟨3125, 100000, [0, 0, 0, 0, 0]⟩, ⟨-3125, 100000, [0, 0, 0, 0, 1]⟩, ⟨3125, 100000, [0, 0, 0, 1, 0]⟩, ⟨-3125, 100000, [0, 0, 0, 1, 1]⟩, ⟨-3125, 100000, [0, 0, 1, 0, 0]⟩, ⟨3125, 100000, [0, 0, 1, 0, 1]⟩, ⟨-3125, 100000, [0, 0, 1, 1, 0]⟩, ⟨3125, 100000, [0, 0, 1, 1, 1]⟩, ⟨3125, 100000, [0, 1, 0, 0, 0]⟩, ⟨-3125, 100000, [0, 1, 0, 0, 1]⟩, ⟨3125, 100000, [0, 1, 0, 1, 0]⟩, ⟨-3125, 100000, [0, 1, 0, 1, 1]⟩, ⟨-3125, 100000, [0, 1, 1, 0, 0]⟩, ⟨3125, 100000, [0, 1, 1, 0, 1]⟩, ⟨-3125, 100000, [0, 1, 1, 1, 0]⟩, ⟨3125, 100000, [0, 1, 1, 1, 1]⟩, ⟨3125, 100000, [1, 0, 0, 0, 0]⟩, ⟨-3125, 100000, [1, 0, 0, 0, 1]⟩, ⟨3125, 100000, [1, 0, 0, 1, 0]⟩, ⟨-3125, 100000, [1, 0, 0, 1, 1]⟩, ⟨-3125, 100000, [1, 0, 1, 0, 0]⟩, ⟨3125, 100000, [1, 0, 1, 0, 1]⟩, ⟨-3125, 100000, [1, 0, 1, 1, 0]⟩, ⟨3125, 100000, [1, 0, 1, 1, 1]⟩, ⟨3125, 100000, [1, 1, 0, 0, 0]⟩, ⟨-3125, 100000, [1, 1, 0, 0, 1]⟩, ⟨3125, 100000, [1, 1, 0, 1, 0]⟩, ⟨-3125, 100000, [1, 1, 0, 1, 1]⟩, ⟨-3125, 100000, [1, 1, 1, 0, 0]⟩, ⟨3125, 100000, [1, 1, 1, 0, 1]⟩, ⟨-3125, 100000, [1, 1, 1, 1, 0]⟩, ⟨3125, 100000, [1, 1, 1, 1, 1]⟩],
  [⟨3125, 100000, [0, 0, 0, 0, 0]⟩, ⟨-3125, 100000, [0, 0, 0, 0, 1]⟩, ⟨3125, 100000, [0, 0, 0, 1, 0]⟩, ⟨-3125, 100000, [0, 0, 0, 1, 1]⟩, ⟨3125, 100000, [0, 0, 1, 0, 0]⟩, ⟨-3125, 100000, [0, 0, 1, 0, 1]⟩, ⟨3125, 100000, [0, 0, 1, 1, 0]⟩, ⟨-3125, 100000, [0, 0, 1, 1, 1]⟩, ⟨-3125, 100000, [0, 1, 0, 0, 0]⟩, ⟨3125, 100000, [0, 1, 0, 0, 1]⟩, ⟨-3125, 100000, [0, 1, 0, 1, 0]⟩, ⟨3125, 100000, [0, 1, 0, 1, 1]⟩, ⟨-3125, 100000, [0, 1, 1, 0, 0]⟩, ⟨3125, 100000, [0, 1, 1, 0, 1]⟩, ⟨-3125, 100000, [0, 1, 1, 1, 0]⟩, ⟨3125, 100000, [0, 1, 1, 1, 1]⟩, ⟨-3125, 100000, [1, 0, 0, 0, 0]⟩, ⟨3125, 100000, [1, 0, 0, 0, 1]⟩, ⟨-3125, 100000, [1, 0, 0, 1, 0]⟩, ⟨3125, 100000, [1, 0, 0, 1, 1]⟩, ⟨-3125, 100000, [1, 0, 1, 0, 0]⟩, ⟨3125, 100000, [1, 0, 1, 0, 1]⟩, ⟨-3125, 100000, [1, 0, 1, 1, 0]⟩, ⟨3125, 100000, [1, 0, 1, 1, 1]⟩, ⟨3125, 100000, [1, 1, 0, 0, 0]⟩, ⟨-3125, 100000, [1, 1, 0, 0, 1]⟩, ⟨3125, 100000, [1, 1, 0, 1, 0]⟩, ⟨-3125, 100000, [1, 1, 0, 1, 1]⟩, ⟨3125, 100000, [1, 1, 1, 0, 0]⟩, ⟨-3125, 100000, [1, 1, 1, 0, 1]⟩, ⟨3125, 100000, [1, 1, 1, 1, 0]⟩, ⟨-3125, 100000, [1, 1, 1, 1, 1]⟩],
  [⟨3125, 100000, [0, 0, 0, 0, 0]⟩, ⟨-3125, 100000, [0, 0, 0, 0, 1]⟩, ⟨3125, 100000, [0, 0, 0, 1, 0]⟩, ⟨-3125, 100000, [0, 0, 0, 1, 1]⟩, ⟨3125, 100000, [0, 0, 1, 0, 0]⟩, ⟨-3125, 100000, [0, 0, 1, 0, 1]⟩, ⟨3125, 100000, [0, 0, 1, 1, 0]⟩, ⟨-3125, 100000, [0, 0, 1, 1, 1]⟩, ⟨-3125, 100000, [0, 1, 0, 0, 0]⟩, ⟨3125, 100000, [0, 1, 0, 0, 1]⟩, ⟨-3125, 100000, [0, 1, 0, 1, 0]⟩, ⟨3125, 100000, [0, 1, 0, 1, 1]⟩, ⟨-3125, 100000, [0, 1, 1, 0, 0]⟩, ⟨3125, 100000, [0, 1, 1, 0, 1]⟩, ⟨-3125, 100000, [0, 1, 1, 1, 0]⟩, ⟨3125, 100000, [0, 1, 1, 1, 1]⟩, ⟨3125, 100000, [1, 0, 0, 0, 0]⟩, ⟨-3125, 100000, [1, 0, 0, 0, 1]⟩, ⟨3125, 100000, [1, 0, 0, 1, 0]⟩, ⟨-3125, 100000, [1, 0, 0, 1, 1]⟩, ⟨3125, 100000, [1, 0, 1, 0, 0]⟩, ⟨-3125, 100000, [1, 0, 1, 0, 1]⟩, ⟨3125, 100000, [1, 0, 1, 1, 0]⟩, ⟨-3125, 100000, [1, 0, 1, 1, 1]⟩, ⟨-3125, 100000, [1, 1, 0, 0, 0]⟩, ⟨3125, 100000, [1, 1, 0, 0, 1]⟩, ⟨-3125, 100000, [1, 1, 0, 1, 0]⟩, ⟨3125, 100000, [1, 1, 0, 1, 1]⟩, ⟨-3125, 100000, [1, 1, 1, 0, 0]⟩, ⟨3125, 100000, [1, 1, 1, 0, 1]⟩, ⟨-3125, 100000, [1, 1, 1, 1, 0]⟩, ⟨3125, 100000, [1, 1, 1, 1, 1]⟩],
  [⟨3125, 100000, [0, 0, 0, 0, 0]⟩, ⟨-3125, 100000, [0, 0, 0, 0, 1]⟩, ⟨3125, 100000, [0, 0, 0, 1, 0]⟩, ⟨-3125, 100000, [0, 0, 0, 1, 1]⟩, ⟨3125, 100000, [0, 0, 1, 0, 0]⟩, ⟨-3125, 100000, [0, 0, 1, 0, 1]⟩, ⟨3125, 100000, [0, 0, 1, 1, 0]⟩, ⟨-3125, 100000, [0, 0, 1, 1, 1]⟩, ⟨3125, 100000, [0, 1, 0, 0, 0]⟩, ⟨-3125, 100000, [0, 1, 0, 0, 1]⟩, ⟨3125, 100000, [0, 1, 0, 1, 0]⟩, ⟨-3125, 100000, [0, 1, 0, 1, 1]⟩, ⟨3125, 100000, [0, 1, 1, 0, 0]⟩, ⟨-3125, 100000, [0, 1, 1, 0, 1]⟩, ⟨3125, 100000, [0, 1, 1, 1, 0]⟩, ⟨-3125, 100000, [0, 1, 1, 1, 1]⟩, ⟨-3125, 100000, [1, 0, 0, 0, 0]⟩, ⟨3125, 100000, [1, 0, 0, 0, 1]⟩, ⟨-3125, 100000, [1, 0, 0, 1, 0]⟩, ⟨3125, 100000, [1, 0, 0, 1, 1]⟩, ⟨-3125, 100000, [1, 0, 1, 0, 0]⟩, ⟨3125, 100000, [1, 0, 1, 0, 1]⟩, ⟨-3125, 100000, [1, 0, 1, 1, 0]⟩, ⟨3125, 100000, [1, 0, 1, 1, 1]⟩, ⟨-3125, 100000, [1, 1, 0, 0, 0]⟩, ⟨3125, 100000, [1, 1, 0, 0, 1]⟩, ⟨-3125, 100000, [1, 1, 0, 1, 0]⟩, ⟨3125, 100000, [1, 1, 0, 1, 1]⟩, ⟨-3125, 100000, [1, 1, 1, 0, 0]⟩, ⟨3125, 100000, [1, 1, 1, 0, 1]⟩, ⟨-3125, 100000, [1, 1, 1, 1, 0]⟩, ⟨3125, 100000, [1, 1, 1, 1, 1]⟩],
  [⟨3125, 100000, [0, 0, 0, 0, 0]⟩, ⟨-3125, 100000, [0, 0, 0, 0, 1]⟩, ⟨3125, 100000, [0, 0, 0, 1, 0]⟩, ⟨-3125, 100000, [0, 0, 0, 1, 1]⟩, ⟨3125, 100000, [0, 0, 1, 0, 0]⟩, ⟨-3125, 100000, [0, 0, 1, 0, 1]⟩, ⟨3125, 100000, [0, 0, 1, 1, 0]⟩, ⟨-3125, 100000, [0, 0, 1, 1, 1]⟩, ⟨3125, 100000, [0, 1, 0, 0, 0]⟩, ⟨-3125, 100000, [0, 1, 0, 0, 1]⟩, ⟨3125, 100000, [0, 1, 0, 1, 0]⟩, ⟨-3125, 100000, [0, 1, 0, 1, 1]⟩, ⟨3125, 100000, [0, 1, 1, 0, 0]⟩, ⟨-3125, 100000, [0, 1, 1, 0, 1]⟩, ⟨3125, 100000, [0, 1, 1, 1, 0]⟩, ⟨-3125, 100000, [0, 1, 1, 1, 1]⟩, ⟨3125, 100000, [1, 0, 0, 0, 0]⟩, ⟨-3125, 100000, [1, 0, 0, 0, 1]⟩, ⟨3125, 100000, [1, 0, 0, 1, 0]⟩, ⟨-3125, 100000, [1, 0, 0, 1, 1]⟩, ⟨3125, 100000, [1, 0, 1, 0, 0]⟩, ⟨-3125, 100000, [1, 0, 1, 0, 1]⟩, ⟨3125, 100000, [1, 0, 1, 1, 0]⟩, ⟨-3125, 100000, [1, 0, 1, 1, 1]⟩, ⟨3125, 100000, [1, 1, 0, 0, 0]⟩, ⟨-3125, 100000, [1, 1, 0, 0, 1]⟩, ⟨3125, 100000, [1, 1, 0, 1, 0]⟩, ⟨-3125, 100000, [1, 1, 0, 1, 1]⟩, ⟨3125, 100000, [1, 1, 1, 0, 0]⟩, ⟨-3125, 100000, [1, 1, 1, 0, 1]⟩, ⟨3125, 100000, [1, 1, 1, 1, 0]⟩, ⟨-3125, 100000, [1, 1, 1, 1, 1]⟩],
  [⟨3125, 100000, [0, 0, 0, 0, 0]⟩, ⟨3125, 100000, [0, 0, 0, 0, 1]⟩, ⟨-3125, 100000, [0, 0, 0, 1, 0]⟩, ⟨-3125, 100000, [0, 0, 0, 1, 1]⟩, ⟨-3125, 100000, [0, 0, 1, 0, 0]⟩, ⟨-3125, 100000, [0, 0, 1, 0, 1]⟩, ⟨3125, 100000, [0, 0, 1, 1, 0]⟩, ⟨3125, 100000, [0, 0, 1, 1, 1]⟩, ⟨-3125, 100000, [0, 1, 0, 0, 0]⟩, ⟨-3125, 100000, [0, 1, 0, 0, 1]⟩, ⟨3125, 100000, [0, 1, 0, 1, 0]⟩, ⟨3125, 100000, [0, 1, 0, 1, 1]⟩, ⟨3125, 100000, [0, 1, 1, 0, 0]⟩, ⟨3125, 100000, [0, 1, 1, 0, 1]⟩, ⟨-3125, 100000, [0, 1, 1, 1, 0]⟩, ⟨-3125, 100000, [0, 1, 1, 1, 1]⟩, ⟨-3125, 100000, [1, 0, 0, 0, 0]⟩, ⟨-3125, 100000, [1, 0, 0, 0, 1]⟩, ⟨3125, 100000, [1, 0, 0, 1, 0]⟩, ⟨3125, 100000, [1, 0, 0, 1, 1]⟩, ⟨3125, 100000, [1, 0, 1, 0, 0]⟩, ⟨3125, 100000, [1, 0, 1, 0, 1]⟩, ⟨-3125, 100000, [1, 0, 1, 1, 0]⟩, ⟨-3125, 100000, [1, 0, 1, 1, 1]⟩, ⟨3125, 100000, [1, 1, 0, 0, 0]⟩, ⟨3125, 100000, [1, 1, 0, 0, 1]⟩, ⟨-3125, 100000, [1, 1, 0, 1, 0]⟩, ⟨-3125, 100000, [1, 1, 0, 1, 1]⟩, ⟨-3125, 100000, [1, 1, 1, 0, 0]⟩, ⟨-3125, 100000, [1, 1, 1, 0, 1]⟩, ⟨3125, 100000, [1, 1, 1, 1, 0]⟩, ⟨3125, 100000, [1, 1, 1, 1, 1]⟩],
  [⟨3125, 100000, [0, 0, 0, 0, 0]⟩, ⟨3125, 100000, [0, 0, 0, 0, 1]⟩, ⟨-3125, 100000, [0, 0, 0, 1, 0]⟩, ⟨-3125, 100000, [0, 0, 0, 1, 1]⟩, ⟨-3125, 100000, [0, 0, 1, 0, 0]⟩, ⟨-3125, 100000, [0, 0, 1, 0, 1]⟩, ⟨3125, 100000, [0, 0, 1, 1, 0]⟩, ⟨3125, 100000, [0, 0, 1, 1, 1]⟩, ⟨-3125, 100000, [0, 1, 0, 0, 0]⟩, ⟨-3125, 100000, [0, 1, 0, 0, 1]⟩, ⟨3125, 100000, [0, 1, 0, 1, 0]⟩, ⟨3125, 100000, [0, 1, 0, 1, 1]⟩, ⟨3125, 100000, [0, 1, 1, 0, 0]⟩, ⟨3125, 100000, [0, 1, 1, 0, 1]⟩, ⟨-3125, 100000, [0, 1, 1, 1, 0]⟩, ⟨-3125, 100000, [0, 1, 1, 1, 1]⟩, ⟨3125, 100000, [1, 0, 0, 0, 0]⟩, ⟨3125, 100000, [1, 0, 0, 0, 1]⟩, ⟨-3125, 100000, [1, 0, 0, 1, 0]⟩, ⟨-3125, 100000, [1, 0, 0, 1, 1]⟩, ⟨-3125, 100000, [1, 0, 1, 0, 0]⟩, ⟨-3125, 100000, [1, 0, 1, 0, 1]⟩, ⟨3125, 100000, [1, 0, 1, 1, 0]⟩, ⟨3125, 100000, [1, 0, 1, 1, 1]⟩, ⟨-3125, 100000, [1, 1, 0, 0, 0]⟩, ⟨-3125, 100000, [1, 1, 0, 0, 1]⟩, ⟨3125, 100000, [1, 1, 0, 1, 0]⟩, ⟨3125, 100000, [1, 1, 0, 1, 1]⟩, ⟨3125, 100000, [1, 1, 1, 0, 0]⟩, ⟨3125, 100000, [1, 1, 1, 0, 1]⟩, ⟨-3125, 100000, [1, 1, 1, 1, 0]⟩, ⟨-3125, 100000, [1, 1, 1, 1, 1]⟩],
  [⟨3125, 100000, [0, 0, 0, 0, 0]⟩, ⟨3125, 100000, [0, 0, 0, 0, 1]⟩, ⟨-3125, 100000, [0, 0, 0, 1, 0]⟩, ⟨-3125, 100000, [0, 0, 0, 1, 1]⟩, ⟨-3125, 100000, [0, 0, 1, 0, 0]⟩, ⟨-3125, 100000, [0, 0, 1, 0, 1]⟩, ⟨3125, 100000, [0, 0, 1, 1, 0]⟩, ⟨3125, 100000, [0, 0, 1, 1, 1]⟩, ⟨3125, 100000, [0, 1, 0, 0, 0]⟩, ⟨3125, 100000, [0, 1, 0, 0, 1]⟩, ⟨-3125, 100000, [0, 1, 0, 1, 0]⟩, ⟨-3125, 100000, [0, 1, 0, 1, 1]⟩, ⟨-3125, 100000, [0, 1, 1, 0, 0]⟩, ⟨-3125, 100000, [0, 1, 1, 0, 1]⟩, ⟨3125, 100000, [0, 1, 1, 1, 0]⟩, ⟨3125, 100000, [0, 1, 1, 1, 1]⟩, ⟨-3125, 100000, [1, 0, 0, 0, 0]⟩, ⟨-3125, 100000, [1, 0, 0, 0, 1]⟩, ⟨3125, 100000, [1, 0, 0, 1, 0]⟩, ⟨3125, 100000, [1, 0, 0, 1, 1]⟩, ⟨3125, 100000, [1, 0, 1, 0, 0]⟩, ⟨3125, 100000, [1, 0, 1, 0, 1]⟩, ⟨-3125, 100000, [1, 0, 1, 1, 0]⟩, ⟨-3125, 100000, [1, 0, 1, 1, 1]⟩, ⟨-3125, 100000, [1, 1, 0, 0, 0]⟩, ⟨-3125, 100000, [1, 1, 0, 0, 1]⟩, ⟨3125, 100000, [1, 1, 0, 1, 0]⟩, ⟨3125, 100000, [1, 1, 0, 1, 1]⟩, ⟨3125, 100000, [1, 1, 1, 0, 0]⟩, ⟨3125, 100000, [1, 1, 1, 0, 1]⟩, ⟨-3125, 100000, [1, 1, 1, 1, 0]⟩, ⟨-3125, 100000, [1, 1, 1, 1, 1]⟩],
  [⟨3125, 100000, [0, 0, 0, 0, 0]⟩, ⟨3125, 100000, [0, 0, 0, 0, 1]⟩, ⟨-3125, 100000, [0, 0, 0, 1, 0]⟩, ⟨-3125, 100000, [0, 0, 0, 1, 1]⟩, ⟨-3125, 100000, [0, 0, 1, 0, 0]⟩, ⟨-3125, 100000, [0, 0, 1, 0, 1]⟩, ⟨3125, 100000, [0, 0, 1, 1, 0]⟩, ⟨3125, 100000, [0, 0, 1, 1, 1]⟩, ⟨3125, 100000, [0, 1, 0, 0, 0]⟩, ⟨3125, 100000, [0, 1, 0, 0, 1]⟩, ⟨-3125, 100000, [0, 1, 0, 1, 0]⟩, ⟨-3125, 100000, [0, 1, 0, 1, 1]⟩, ⟨-3125, 100000, [0, 1, 1, 0, 0]⟩, ⟨-3125, 100000, [0, 1, 1, 0, 1]⟩, ⟨3125, 100000, [0, 1, 1, 1, 0]⟩, ⟨3125, 100000, [0, 1, 1, 1, 1]⟩, ⟨3125, 100000, [1, 0, 0, 0, 0]⟩, ⟨3125, 100000, [1, 0, 0, 0, 1]⟩, ⟨-3125, 100000, [1, 0, 0, 1, 0]⟩, ⟨-3125, 100000, [1, 0, 0, 1, 1]⟩, ⟨-3125, 100000, [1, 0, 1, 0, 0]⟩, ⟨-3125, 100000, [1, 0, 1, 0, 1]⟩, ⟨3125, 100000, [1, 0, 1, 1, 0]⟩, ⟨3125, 100000, [1, 0, 1, 1, 1]⟩, ⟨3125, 100000, [1, 1, 0, 0, 0]⟩, ⟨3125, 100000, [1, 1, 0, 0, 1]⟩, ⟨-3125, 100000, [1, 1, 0, 1, 0]⟩, ⟨-3125, 100000, [1, 1, 0, 1, 1]⟩, ⟨-3125, 100000, [1, 1, 1, 0, 0]⟩, ⟨-3125, 100000, [1, 1, 1, 0, 1]⟩, ⟨3125, 100000, [1, 1, 1, 1, 0]⟩, ⟨3125, 100000, [1, 1, 1, 1, 1]⟩],
  [⟨3125, 100000, [0, 0, 0, 0, 0]⟩, ⟨3125, 100000, [0, 0, 0, 0, 1]⟩, ⟨-3125, 100000, [0, 0, 0, 1, 0]⟩, ⟨-3125, 100000, [0, 0, 0, 1, 1]⟩, ⟨3125, 100000, [0, 0, 1, 0, 0]⟩, ⟨3125, 100000, [0, 0, 1, 0, 1]⟩, ⟨-3125, 100000, [0, 0, 1, 1, 0]⟩, ⟨-3125, 100000, [0, 0, 1, 1, 1]⟩, ⟨-3125, 100000, [0, 1, 0, 0, 0]⟩, ⟨-3125, 100000, [0, 1, 0, 0, 1]⟩, ⟨3125, 100000, [0, 1, 0, 1, 0]⟩, ⟨3125, 100000, [0, 1, 0, 1, 1]⟩, ⟨-3125, 100000, [0, 1, 1, 0, 0]⟩, ⟨-3125, 100000, [0, 1, 1, 0, 1]⟩, ⟨3125, 100000, [0, 1, 1, 1, 0]⟩, ⟨3125, 100000, [0, 1, 1, 1, 1]⟩, ⟨-3125, 100000, [1, 0, 0, 0, 0]⟩, ⟨-3125, 100000, [1, 0, 0, 0, 1]⟩, ⟨3125, 100000, [1, 0, 0, 1, 0]⟩, ⟨3125, 100000, [1, 0, 0, 1, 1]⟩, ⟨-3125, 100000, [1, 0, 1, 0, 0]⟩, ⟨-3125, 100000, [1, 0, 1, 0, 1]⟩, ⟨3125, 100000, [1, 0, 1, 1, 0]⟩, ⟨3125, 100000, [1, 0, 1, 1, 1]⟩, ⟨3125, 100000, [1, 1, 0, 0, 0]⟩, ⟨3125, 100000, [1, 1, 0, 0, 1]⟩, ⟨-3125, 100000, [1, 1, 0, 1, 0]⟩, ⟨-3125, 100000, [1, 1, 0, 1, 1]⟩, ⟨3125, 100000, [1, 1, 1, 0, 0]⟩, ⟨3125, 100000, [1, 1, 1, 0, 1]⟩, ⟨-3125, 100000, [1, 1, 1, 1, 0]⟩, ⟨-3125, 100000, [1, 1, 1, 1, 1]⟩],
  [⟨3125, 100000, [0, 0, 0, 0, 0]⟩, ⟨3125, 100000, [0, 0, 0, 0, 1]⟩, ⟨-3125, 100000, [0, 0, 0, 1, 0]⟩, ⟨-3125, 100000, [0, 0, 0, 1, 1]⟩, ⟨3125, 100000, [0, 0, 1, 0, 0]⟩, ⟨3125, 100000, [0, 0, 1, 0, 1]⟩, ⟨-3125, 100000, [0, 0, 1, 1, 0]⟩, ⟨-3125, 100000, [0, 0, 1, 1, 1]⟩, ⟨-3125, 100000, [0, 1, 0, 0, 0]⟩, ⟨-3125, 100000, [0, 1, 0, 0, 1]⟩, ⟨3125, 100000, [0, 1, 0, 1, 0]⟩, ⟨3125, 100000, [0, 1, 0, 1, 1]⟩, ⟨-3125, 100000, [0, 1, 1, 0, 0]⟩, ⟨-3125, 100000, [0, 1, 1, 0, 1]⟩, ⟨3125, 100000, [0, 1, 1, 1, 0]⟩, ⟨3125, 100000, [0, 1, 1, 1, 1]⟩, ⟨3125, 100000, [1, 0, 0, 0, 0]⟩, ⟨3125, 100000, [1, 0, 0, 0, 1]⟩, ⟨-3125, 100000, [1, 0, 0, 1, 0]⟩, ⟨-3125, 100000, [1, 0, 0, 1, 1]⟩, ⟨3125, 100000, [1, 0, 1, 0, 0]⟩, ⟨3125, 100000, [1, 0, 1, 0, 1]⟩, ⟨-3125, 100000, [1, 0, 1, 1, 0]⟩, ⟨-3125, 100000, [1, 0, 1, 1, 1]⟩, ⟨-3125, 100000, [1, 1, 0, 0, 0]⟩, ⟨-3125, 100000, [1, 1, 0, 0, 1]⟩, ⟨3125, 100000, [1, 1, 0, 1, 0]⟩, ⟨3125, 100000, [1, 1, 0, 1, 1]⟩, ⟨-3125, 100000, [1, 1, 1, 0, 0]⟩, ⟨-3125, 100000, [1, 1, 1, 0, 1]⟩, ⟨3125, 100000, [1, 1, 1, 1, 0]⟩, ⟨3125, 100000, [1, 1, 1, 1, 1]⟩],
  [⟨3125, 100000, [0, 0, 0, 0, 0]⟩, ⟨3125, 100000, [0, 0, 0, 0, 1]⟩, ⟨-3125, 100000, [0, 0, 0, 1, 0]⟩, ⟨-3125, 100000, [0, 0, 0, 1, 1]⟩, ⟨3125, 100000, [0, 0, 1, 0, 0]⟩, ⟨3125, 100000, [0, 0, 1, 0, 1]⟩, ⟨-3125, 100000, [0, 0, 1, 1, 0]⟩, ⟨-3125, 100000, [0, 0, 1, 1, 1]⟩, ⟨3125, 100000, [0, 1, 0, 0, 0]⟩, ⟨3125, 100000, [0, 1, 0, 0, 1]⟩, ⟨-3125, 100000, [0, 1, 0, 1, 0]⟩, ⟨-3125, 100000, [0, 1, 0, 1, 1]⟩, ⟨3125, 100000, [0, 1, 1, 0, 0]⟩, ⟨3125, 100000, [0, 1, 1, 0, 1]⟩, ⟨-3125, 100000, [0, 1, 1, 1, 0]⟩, ⟨-3125, 100000, [0, 1, 1, 1, 1]⟩, ⟨-3125, 100000, [1, 0, 0, 0, 0]⟩, ⟨-3125, 100000, [1, 0, 0, 0, 1]⟩, ⟨3125, 100000, [1, 0, 0, 1, 0]⟩, ⟨3125, 100000, [1, 0, 0, 1, 1]⟩, ⟨-3125, 100000, [1, 0, 1, 0, 0]⟩, ⟨-3125, 100000, [1, 0, 1, 0, 1]⟩, ⟨3125, 100000, [1, 0, 1, 1, 0]⟩, ⟨3125, 100000, [1, 0, 1, 1, 1]⟩, ⟨-3125, 100000, [1, 1, 0, 0, 0]⟩, ⟨-3125, 100000, [1, 1, 0, 0, 1]⟩, ⟨3125, 100000, [1, 1, 0, 1, 0]⟩, ⟨3125, 100000, [1, 1, 0, 1, 1]⟩, ⟨-3125, 100000, [1, 1, 1, 0, 0]⟩, ⟨-3125, 100000, [1, 1, 1, 0, 1]⟩, ⟨3125, 100000, [1, 1, 1, 1, 0]⟩, ⟨3125, 100000, [1, 1, 1, 1, 1]⟩],
  [⟨3125, 100000, [0, 0, 0, 0, 0]⟩, ⟨3125, 100000, [0, 0, 0, 0, 1]⟩, ⟨-3125, 100000, [0, 0, 0, 1, 0]⟩, ⟨-3125, 100000, [0, 0, 0, 1, 1]⟩, ⟨3125, 100000, [0, 0, 1, 0, 0]⟩, ⟨3125, 100000, [0, 0, 1, 0, 1]⟩, ⟨-3125, 100000, [0, 0, 1, 1, 0]⟩, ⟨-3125, 100000, [0, 0, 1, 1, 1]⟩, ⟨3125, 100000, [0, 1, 0, 0, 0]⟩, ⟨3125, 100000, [0, 1, 0, 0, 1]⟩, ⟨-3125, 100000, [0, 1, 0, 1, 0]⟩, ⟨-3125, 100000, [0, 1, 0, 1, 1]⟩, ⟨3125, 100000, [0, 1, 1, 0, 0]⟩, ⟨3125, 100000, [0, 1, 1, 0, 1]⟩, ⟨-3125, 100000, [0, 1, 1, 1, 0]⟩, ⟨-3125, 100000, [0, 1, 1, 1, 1]⟩, ⟨3125, 100000, [1, 0, 0, 0, 0]⟩, ⟨3125, 100000, [1, 0, 0, 0, 1]⟩, ⟨-3125, 100000, [1, 0, 0, 1, 0]⟩, ⟨-3125, 100000, [1, 0, 0, 1, 1]⟩, ⟨3125, 100000, [1, 0, 1, 0, 0]⟩, ⟨3125, 100000, [1, 0, 1, 0, 1]⟩, ⟨-3125, 100000, [1, 0, 1, 1, 0]⟩, ⟨-3125, 100000, [1, 0, 1, 1, 1]⟩, ⟨3125, 100000, [1, 1, 0, 0, 0]⟩, ⟨3125, 100000, [1, 1, 0, 0, 1]⟩, ⟨-3125, 100000, [1, 1, 0, 1, 0]⟩, ⟨-3125, 100000, [1, 1, 0, 1, 1]⟩, ⟨3125, 100000, [1, 1, 1, 0, 0]⟩, ⟨3125, 100000, [1, 1, 1, 0, 1]⟩, ⟨-3125, 100000, [1, 1, 1, 1, 0]⟩, ⟨-3125, 100000, [1, 1, 1, 1, 1]⟩],
  [⟨3125, 100000, [0, 0, 0, 0, 0]⟩, ⟨3125, 100000, [0, 0, 0, 0, 1]⟩, ⟨3125, 100000, [0, 0, 0, 1, 0]⟩, ⟨3125, 100000, [0, 0, 0, 1, 1]⟩, ⟨-3125, 100000, [0, 0, 1, 0, 0]⟩, ⟨-3125, 100000, [0, 0, 1, 0, 1]⟩, ⟨-3125, 100000, [0, 0, 1, 1, 0]⟩, ⟨-3125, 100000, [0, 0, 1, 1, 1]⟩, ⟨-3125, 100000, [0, 1, 0, 0, 0]⟩, ⟨-3125, 100000, [0, 1, 0, 0, 1]⟩, ⟨-3125, 100000, [0, 1, 0, 1, 0]⟩, ⟨-3125, 100000, [0, 1, 0, 1, 1]⟩, ⟨3125, 100000, [0, 1, 1, 0, 0]⟩, ⟨3125, 100000, [0, 1, 1, 0, 1]⟩, ⟨3125, 100000, [0, 1, 1, 1, 0]⟩, ⟨3125, 100000, [0, 1, 1, 1, 1]⟩, ⟨-3125, 100000, [1, 0, 0, 0, 0]⟩, ⟨-3125, 100000, [1, 0, 0, 0, 1]⟩, ⟨-3125, 100000, [1, 0, 0, 1, 0]⟩, ⟨-3125, 100000, [1, 0, 0, 1, 1]⟩, ⟨3125, 100000, [1, 0, 1, 0, 0]⟩, ⟨3125, 100000, [1, 0, 1, 0, 1]⟩, ⟨3125, 100000, [1, 0, 1, 1, 0]⟩, ⟨3125, 100000, [1, 0, 1, 1, 1]⟩, ⟨3125, 100000, [1, 1, 0, 0, 0]⟩, ⟨3125, 100000, [1, 1, 0, 0, 1]⟩, ⟨3125, 100000, [1, 1, 0, 1, 0]⟩, ⟨3125, 100000, [1, 1, 0, 1, 1]⟩, ⟨-3125, 100000, [1, 1, 1, 0, 0]⟩, ⟨-3125, 100000, [1, 1, 1, 0, 1]⟩, ⟨-3125, 100000, [1, 1, 1, 1, 0]⟩, ⟨-3125, 100000, [1, 1, 1, 1, 1]⟩],
  [⟨3125, 100000, [0, 0, 0, 0, 0]⟩, ⟨3125, 100000, [0, 0, 0, 0, 1]⟩, ⟨3125, 100000, [0, 0, 0, 1, 0]⟩, ⟨3125, 100000, [0, 0, 0, 1, 1]⟩, ⟨-3125, 100000, [0, 0, 1, 0, 0]⟩, ⟨-3125, 100000, [0, 0, 1, 0, 1]⟩, ⟨-3125, 100000, [0, 0, 1, 1, 0]⟩, ⟨-3125, 100000, [0, 0, 1, 1, 1]⟩, ⟨-3125, 100000, [0, 1, 0, 0, 0]⟩, ⟨-3125, 100000, [0, 1, 0, 0, 1]⟩, ⟨-3125, 100000, [0, 1, 0, 1, 0]⟩, ⟨-3125, 100000, [0, 1, 0, 1, 1]⟩, ⟨3125, 100000, [0, 1, 1, 0, 0]⟩, ⟨3125, 100000, [0, 1, 1, 0, 1]⟩, ⟨3125, 100000, [0, 1, 1, 1, 0]⟩, ⟨3125, 100000, [0, 1, 1, 1, 1]⟩, ⟨3125, 100000, [1, 0, 0, 0, 0]⟩, ⟨3125, 100000, [1, 0, 0, 0, 1]⟩, ⟨3125, 100000, [1, 0, 0, 1, 0]⟩, ⟨3125, 100000, [1, 0, 0, 1, 1]⟩, ⟨-3125, 100000, [1, 0, 1, 0, 0]⟩, ⟨-3125, 100000, [1, 0, 1, 0, 1]⟩, ⟨-3125, 100000, [1, 0, 1, 1, 0]⟩, ⟨-3125, 100000, [1, 0, 1, 1, 1]⟩, ⟨-3125, 100000, [1, 1, 0, 0, 0]⟩, ⟨-3125, 100000, [1, 1, 0, 0, 1]⟩, ⟨-3125, 100000, [1, 1, 0, 1, 0]⟩, ⟨-3125, 100000, [1, 1, 0, 1, 1]⟩, ⟨3125, 100000, [1, 1, 1, 0, 0]⟩, ⟨3125, 100000, [1, 1, 1, 0, 1]⟩, ⟨3125, 100000, [1, 1, 1, 1, 0]⟩, ⟨3125, 100000, [1, 1, 1, 1, 1]⟩],
  [⟨3125, 100000, [0, 0, 0, 0, 0]⟩, ⟨3125, 100000, [0, 0, 0, 0, 1]⟩, ⟨3125, 100000, [0, 0, 0, 1, 0]⟩, ⟨3125, 100000, [0, 0, 0, 1, 1]⟩, ⟨-3125, 100000, [0, 0, 1, 0, 0]⟩, ⟨-3125, 100000, [0, 0, 1, 0, 1]⟩, ⟨-3125, 100000, [0, 0, 1, 1, 0]⟩, ⟨-3125, 100000, [0, 0, 1, 1, 1]⟩, ⟨3125, 100000, [0, 1, 0, 0, 0]⟩, ⟨3125, 100000, [0, 1, 0, 0, 1]⟩, ⟨3125, 100000, [0, 1, 0, 1, 0]⟩, ⟨3125, 100000, [0, 1, 0, 1, 1]⟩, ⟨-3125, 100000, [0, 1, 1, 0, 0]⟩, ⟨-3125, 100000, [0, 1, 1, 0, 1]⟩, ⟨-3125, 100000, [0, 1, 1, 1, 0]⟩, ⟨-3125, 100000, [0, 1, 1, 1, 1]⟩, ⟨-3125, 100000, [1, 0, 0, 0, 0]⟩, ⟨-3125, 100000, [1, 0, 0, 0, 1]⟩, ⟨-3125, 100000, [1, 0, 0, 1, 0]⟩, ⟨-3125, 100000, [1, 0, 0, 1, 1]⟩, ⟨3125, 100000, [1, 0, 1, 0, 0]⟩, ⟨3125, 100000, [1, 0, 1, 0, 1]⟩, ⟨3125, 100000, [1, 0, 1, 1, 0]⟩, ⟨3125, 100000, [1, 0, 1, 1, 1]⟩, ⟨-3125, 100000, [1, 1, 0, 0, 0]⟩, ⟨-3125, 100000, [1, 1, 0, 0, 1]⟩, ⟨-3125, 100000, [1, 1, 0, 1, 0]⟩, ⟨-3125, 100000, [1, 1, 0, 1, 1]⟩, ⟨3125, 100000, [1, 1, 1, 0, 0]⟩, ⟨3125, 100000, [1, 1, 1, 0, 1]⟩, ⟨3125, 100000, [1, 1, 1, 1, 0]⟩, ⟨3125, 100000, [1, 1, 1, 1, 1]⟩],
  [⟨3125, 100000, [0, 0, 0, 0, 0]⟩, ⟨3125, 100000, [0, 0, 0, 0, 1]⟩, ⟨3125, 100000, [0, 0, 0, 1, 0]⟩, ⟨3125, 100000, [0, 0, 0, 1, 1]⟩, ⟨-3125, 100000, [0, 0, 1, 0, 0]⟩, ⟨-3125, 100000, [0, 0, 1, 0, 1]⟩, ⟨-3125, 100000, [0, 0, 1, 1, 0]⟩, ⟨-3125, 100000, [0, 0, 1, 1, 1]⟩, ⟨3125, 100000, [0, 1, 0, 0, 0]⟩, ⟨3125, 100000, [0, 1, 0, 0, 1]⟩, ⟨3125, 100000, [0, 1, 0, 1, 0]⟩, ⟨3125, 100000, [0, 1, 0, 1, 1]⟩, ⟨-3125, 100000, [0, 1, 1, 0, 0]⟩, ⟨-3125, 100000, [0, 1, 1, 0, 1]⟩, ⟨-3125, 100000, [0, 1, 1, 1, 0]⟩, ⟨-3125, 100000, [0, 1, 1, 1, 1]⟩, ⟨3125, 100000, [1, 0, 0, 0, 0]⟩, ⟨3125, 100000, [1, 0, 0, 0, 1]⟩, ⟨3125, 100000, [1, 0, 0, 1, 0]⟩, ⟨3125, 100000, [1, 0, 0, 1, 1]⟩, ⟨-3125, 100000, [1, 0, 1, 0, 0]⟩, ⟨-3125, 100000, [1, 0, 1, 0, 1]⟩, ⟨-3125, 100000, [1, 0, 1, 1, 0]⟩, ⟨-3125, 100000, [1, 0, 1, 1, 1]⟩, ⟨3125, 100000, [1, 1, 0, 0, 0]⟩, ⟨3125, 100000, [1, 1, 0, 0, 1]⟩, ⟨3125, 100000, [1, 1, 0, 1, 0]⟩, ⟨3125, 100000, [1, 1, 0, 1, 1]⟩, ⟨-3125, 100000, [1, 1, 1, 0, 0]⟩, ⟨-3125, 100000, [1, 1, 1, 0, 1]⟩, ⟨-3125, 100000, [1, 1, 1, 1, 0]⟩, ⟨-3125, 100000, [1, 1, 1, 1, 1]⟩],
  [⟨3125, 100000, [0, 0, 0, 0, 0]⟩, ⟨3125, 100000, [0, 0, 0, 0, 1]⟩, ⟨3125, 100000, [0, 0, 0, 1, 0]⟩, ⟨3125, 100000, [0, 0, 0, 1, 1]⟩, ⟨3125, 100000, [0, 0, 1, 0, 0]⟩, ⟨3125, 100000, [0, 0, 1, 0, 1]⟩, ⟨3125, 100000, [0, 0, 1, 1, 0]⟩, ⟨3125, 100000, [0, 0, 1, 1, 1]⟩, ⟨-3125, 100000, [0, 1, 0, 0, 0]⟩, ⟨-3125, 100000, [0, 1, 0, 0, 1]⟩, ⟨-3125, 100000, [0, 1, 0, 1, 0]⟩, ⟨-3125, 100000, [0, 1, 0, 1, 1]⟩, ⟨-3125, 100000, [0, 1, 1, 0, 0]⟩, ⟨-3125, 100000, [0, 1, 1, 0, 1]⟩, ⟨-3125, 100000, [0, 1, 1, 1, 0]⟩, ⟨-3125, 100000, [0, 1, 1, 1, 1]⟩, ⟨-3125, 100000, [1, 0, 0, 0, 0]⟩, ⟨-3125, 100000, [1, 0, 0, 0, 1]⟩, ⟨-3125, 100000, [1, 0, 0, 1, 0]⟩, ⟨-3125, 100000, [1, 0, 0, 1, 1]⟩, ⟨-3125, 100000, [1, 0, 1, 0, 0]⟩, ⟨-3125, 100000, [1, 0, 1, 0, 1]⟩, ⟨-3125, 100000, [1, 0, 1, 1, 0]⟩, ⟨-3125, 100000, [1, 0, 1, 1, 1]⟩, ⟨3125, 100000, [1, 1, 0, 0, 0]⟩, ⟨3125, 100000, [1, 1, 0, 0, 1]⟩, ⟨3125, 100000, [1, 1, 0, 1, 0]⟩, ⟨3125, 100000, [1, 1, 0, 1, 1]⟩, ⟨3125, 100000, [1, 1, 1, 0, 0]⟩, ⟨3125, 100000, [1, 1, 1, 0, 1]⟩, ⟨3125, 100000, [1, 1, 1, 1, 0]⟩, ⟨3125, 100000, [1, 1, 1, 1, 1]⟩],
  [⟨3125, 100000, [0, 0, 0, 0, 0]⟩, ⟨3125, 100000, [0, 0, 0, 0, 1]⟩, ⟨3125, 100000, [0, 0, 0, 1, 0]⟩, ⟨3125, 100000, [0, 0, 0, 1, 1]⟩, ⟨3125, 100000, [0, 0, 1, 0, 0]⟩, ⟨3125, 100000, [0, 0, 1, 0, 1]⟩, ⟨3125, 100000, [0, 0, 1, 1, 0]⟩, ⟨3125, 100000, [0, 0, 1, 1, 1]⟩, ⟨-3125, 100000, [0, 1, 0, 0, 0]⟩, ⟨-3125, 100000, [0, 1, 0, 0, 1]⟩, ⟨-3125, 100000, [0, 1, 0, 1, 0]⟩, ⟨-3125, 100000, [0, 1, 0, 1, 1]⟩, ⟨-3125, 100000, [0, 1, 1, 0, 0]⟩, ⟨-3125, 100000, [0, 1, 1, 0, 1]⟩, ⟨-3125, 100000, [0, 1, 1, 1, 0]⟩, ⟨-3125, 100000, [0, 1, 1, 1, 1]⟩, ⟨3125, 100000, [1, 0, 0, 0, 0]⟩, ⟨3125, 100000, [1, 0, 0, 0, 1]⟩, ⟨3125, 100000, [1, 0, 0, 1, 0]⟩, ⟨3125, 100000, [1, 0, 0, 1, 1]⟩, ⟨3125, 100000, [1, 0, 1, 0, 0]⟩, ⟨3125, 100000, [1, 0, 1, 0, 1]⟩, ⟨3125, 100000, [1, 0, 1, 1, 0]⟩, ⟨3125, 100000, [1, 0, 1, 1, 1]⟩, ⟨-3125, 100000, [1, 1, 0, 0, 0]⟩, ⟨-3125, 100000, [1, 1, 0, 0, 1]⟩, ⟨-3125, 100000, [1, 1, 0, 1, 0]⟩, ⟨-3125, 100000, [1, 1, 0, 1, 1]⟩, ⟨-3125, 100000, [1, 1, 1, 0, 0]⟩, ⟨-3125, 100000, [1, 1, 1, 0, 1]⟩, ⟨-3125, 100000, [1, 1, 1, 1, 0]⟩, ⟨-3125, 100000, [1, 1, 1, 1, 1]⟩],
  [⟨3125, 100000, [0, 0, 0, 0, 0]⟩, ⟨3125, 100000, [0, 0, 0, 0, 1]⟩, ⟨3125, 100000, [0, 0, 0, 1, 0]⟩, ⟨3125, 100000, [0, 0, 0, 1, 1]⟩, ⟨3125, 100000, [0, 0, 1, 0, 0]⟩, ⟨3125, 100000, [0, 0, 1, 0, 1]⟩, ⟨3125, 100000, [0, 0, 1, 1, 0]⟩, ⟨3125, 100000, [0, 0, 1, 1, 1]⟩, ⟨3125, 100000, [0, 1, 0, 0, 0]⟩, ⟨3125, 100000, [0, 1, 0, 0, 1]⟩, ⟨3125, 100000, [0, 1, 0, 1, 0]⟩, ⟨3125, 100000, [0, 1, 0, 1, 1]⟩, ⟨3125, 100000, [0, 1, 1, 0, 0]⟩, ⟨3125, 100000, [0, 1, 1, 0, 1]⟩, ⟨3125, 100000, [0, 1, 1, 1, 0]⟩, ⟨3125, 100000, [0, 1, 1, 1, 1]⟩, ⟨-3125, 100000, [1, 0, 0, 0, 0]⟩, ⟨-3125, 100000, [1, 0, 0, 0, 1]⟩, ⟨-3125, 100000, [1, 0, 0, 1, 0]⟩, ⟨-3125, 100000, [1, 0, 0, 1, 1]⟩, ⟨-3125, 100000, [1, 0, 1, 0, 0]⟩, ⟨-3125, 100000, [1, 0, 1, 0, 1]⟩, ⟨-3125, 100000, [1, 0, 1, 1, 0]⟩, ⟨-3125, 100000, [1, 0, 1, 1, 1]⟩, ⟨-3125, 100000, [1, 1, 0, 0, 0]⟩, ⟨-3125, 100000, [1, 1, 0, 0, 1]⟩, ⟨-3125, 100000, [1, 1, 0, 1, 0]⟩, ⟨-3125, 100000, [1, 1, 0, 1, 1]⟩, ⟨-3125, 100000, [1, 1, 1, 0, 0]⟩, ⟨-3125, 100000, [1, 1, 1, 0, 1]⟩, ⟨-3125, 100000, [1, 1, 1, 1, 0]⟩, ⟨-3125, 100000, [1, 1, 1, 1, 1]⟩],
  [⟨3125, 100000, [0, 0, 0, 0, 0]⟩, ⟨3125, 100000, [0, 0, 0, 0, 1]⟩, ⟨3125, 100000, [0, 0, 0, 1, 0]⟩, ⟨3125, 100000, [0, 0, 0, 1, 1]⟩, ⟨3125, 100000, [0, 0, 1, 0, 0]⟩, ⟨3125, 100000, [0, 0, 1, 0, 1]⟩, ⟨3125, 100000, [0, 0, 1, 1, 0]⟩, ⟨3125, 100000, [0, 0, 1, 1, 1]⟩, ⟨3125, 100000, [0, 1, 0, 0, 0]⟩, ⟨3125, 100000, [0, 1, 0, 0, 1]⟩, ⟨3125, 100000, [0, 1, 0, 1, 0]⟩, ⟨3125, 100000, [0, 1, 0, 1, 1]⟩, ⟨3125, 100000, [0, 1, 1, 0, 0]⟩, ⟨3125, 100000, [0, 1, 1, 0, 1]⟩, ⟨3125, 100000, [0, 1, 1, 1, 0]⟩, ⟨3125, 100000, [0, 1, 1, 1, 1]⟩, ⟨3125, 100000, [1, 0, 0, 0, 0]⟩, ⟨3125, 100000, [1, 0, 0, 0, 1]⟩, ⟨3125, 100000, [1, 0, 0, 1, 0]⟩, ⟨3125, 100000, [1, 0, 0, 1, 1]⟩, ⟨3125, 100000, [1, 0, 1, 0, 0]⟩, ⟨3125, 100000, [1, 0, 1, 0, 1]⟩, ⟨3125, 100000, [1, 0, 1, 1, 0]⟩, ⟨3125, 100000, [1, 0, 1, 1, 1]⟩, ⟨3125, 100000, [1, 1, 0, 0, 0]⟩, ⟨3125, 100000, [1, 1, 0, 0, 1]⟩, ⟨3125, 100000, [1, 1, 0, 1, 0]⟩, ⟨3125, 100000, [1, 1, 0, 1, 1]⟩, ⟨3125, 100000, [1, 1, 1, 0, 0]⟩, ⟨3125, 100000, [1, 1, 1, 0, 1]⟩, ⟨3125, 100000, [1, 1, 1, 1, 0]⟩, ⟨3125, 100000, [1, 1, 1, 1, 1]⟩]]

/-- computeDerivativeMatrices.py: all the branches, by dimension, kind of basis and order. -/
def all : List (Key × List Poly) := [
  (⟨1, .modal1, 1⟩, modal1p1),
  (⟨1, .modal1, 2⟩, modal1p2),
  (⟨1, .modal1, 3⟩, modal1p3),
  (⟨1, .modal1, 4⟩, modal1p4),
  (⟨1, .nodal "serendipity", 1⟩, nodalSer1p1),
  (⟨1, .nodal "serendipity", 2⟩, nodalSer1p2),
  (⟨1, .nodal "serendipity", 3⟩, nodalSer1p3),
  (⟨1, .nodal "serendipity", 4⟩, nodalSer1p4),
  (⟨2, .modal "maximal-order", 1⟩, modalMax2p1),
  (⟨2, .modal "maximal-order", 2⟩, modalMax2p2),
  (⟨2, .modal "maximal-order", 3⟩, modalMax2p3),
  (⟨2, .modal "maximal-order", 4⟩, modalMax2p4),
  (⟨2, .modal "serendipity", 1⟩, modalSer2p1),
  (⟨2, .modal "serendipity", 2⟩, modalSer2p2),
  (⟨2, .modal "serendipity", 3⟩, modalSer2p3),
  (⟨2, .modal "serendipity", 4⟩, modalSer2p4),
  (⟨2, .nodal "serendipity", 1⟩, nodalSer2p1),
  (⟨2, .nodal "serendipity", 2⟩, nodalSer2p2),
  (⟨3, .modal "maximal-order", 1⟩, modalMax3p1),
  (⟨3, .modal "maximal-order", 2⟩, modalMax3p2),
  (⟨3, .modal "maximal-order", 3⟩, modalMax3p3),
  (⟨3, .modal "maximal-order", 4⟩, modalMax3p4),
  (⟨3, .modal "serendipity", 1⟩, modalSer3p1),
  (⟨3, .modal "serendipity", 2⟩, modalSer3p2),
  (⟨3, .modal "serendipity", 3⟩, modalSer3p3),
  (⟨3, .modal "serendipity", 4⟩, modalSer3p4),
  (⟨3, .nodal "serendipity", 1⟩, nodalSer3p1),
  (⟨3, .nodal "serendipity", 2⟩, nodalSer3p2),
  (⟨4, .modal "maximal-order", 1⟩, modalMax4p1),
  (⟨4, .modal "maximal-order", 2⟩, modalMax4p2),
  (⟨4, .modal "maximal-order", 3⟩, modalMax4p3),
  (⟨4, .modal "maximal-order", 4⟩, modalMax4p4),
  (⟨4, .modal "serendipity", 1⟩, modalSer4p1),
  (⟨4, .modal "serendipity", 2⟩, modalSer4p2),
  (⟨4, .modal "serendipity", 3⟩, modalSer4p3),
  (⟨4, .modal "serendipity", 4⟩, modalSer4p4),
  (⟨4, .nodal "serendipity", 1⟩, nodalSer4p1),
  (⟨4, .nodal "serendipity", 2⟩, nodalSer4p2),
  (⟨5, .modal "maximal-order", 1⟩, modalMax5p1),
  (⟨5, .modal "maximal-order", 2⟩, modalMax5p2),
  (⟨5, .modal "maximal-order", 3⟩, modalMax5p3),
  (⟨5, .modal "maximal-order", 4⟩, modalMax5p4),
  (⟨5, .modal "serendipity", 1⟩, modalSer5p1),
  (⟨5, .modal "serendipity", 2⟩, modalSer5p2),
  (⟨5, .modal "serendipity", 3⟩, modalSer5p3),
  (⟨5, .modal "serendipity", 4⟩, modalSer5p4),
  (⟨5, .nodal "serendipity", 1⟩, nodalSer5p1)]

end Pgkyl.Dg.DerivTables
