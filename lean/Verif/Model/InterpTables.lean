import Verif.Model.Poly
/-!
# The basis functions written out in `data/computeInterpolationMatrices.py`

The polynomials of every `functionVector` of the file, in the order in which they are listed there,
multiplied out; coefficients are the exact values of the decimal literals and of their quotients (in
the code they are rounded to double precision).  Transcribed mechanically from the source text.
-/

namespace Pgkyl.Dg.InterpTables

/-- computeInterpolationMatrices.py:56-56. -/
def modal1p0 : List Poly := [
  [⟨7071067811865468, 10000000000000000, [0]⟩]]

/-- computeInterpolationMatrices.py:64-64. -/
def modal1p1 : List Poly := [
  [⟨7071067811865468, 10000000000000000, [0]⟩],
  [⟨1224744871391589, 1000000000000000, [1]⟩]]

/-- computeInterpolationMatrices.py:72-78. -/
def modal1p2 : List Poly := [
  [⟨7071067811865468, 10000000000000000, [0]⟩],
  [⟨1224744871391589, 1000000000000000, [1]⟩],
  [⟨-7905694150420951, 10000000000000000, [0]⟩, ⟨2371708245126285, 1000000000000000, [2]⟩]]

/-- computeInterpolationMatrices.py:86-93. -/
def modal1p3 : List Poly := [
  [⟨7071067811865468, 10000000000000000, [0]⟩],
  [⟨1224744871391589, 1000000000000000, [1]⟩],
  [⟨-7905694150420951, 10000000000000000, [0]⟩, ⟨2371708245126285, 1000000000000000, [2]⟩],
  [⟨-2806243040080457, 1000000000000000, [1]⟩, ⟨4677071733467427, 1000000000000000, [3]⟩]]

/-- computeInterpolationMatrices.py:101-113. -/
def modal1p4 : List Poly := [
  [⟨7071067811865468, 10000000000000000, [0]⟩],
  [⟨1224744871391589, 1000000000000000, [1]⟩],
  [⟨-7905694150420951, 10000000000000000, [0]⟩, ⟨2371708245126285, 1000000000000000, [2]⟩],
  [⟨-2806243040080457, 1000000000000000, [1]⟩, ⟨4677071733467427, 1000000000000000, [3]⟩],
  [⟨7954951288348655, 10000000000000000, [0]⟩, ⟨-7954951288348656, 1000000000000000, [2]⟩, ⟨9280776503073431, 1000000000000000, [4]⟩]]

/-- computeInterpolationMatrices.py:129-129. -/
def nodal1p1 : List Poly := [
  [⟨5, 10, [0]⟩, ⟨-5, 10, [1]⟩],
  [⟨5, 10, [0]⟩, ⟨5, 10, [1]⟩]]

/-- computeInterpolationMatrices.py:137-139. -/
def nodal1p2 : List Poly := [
  [⟨-5, 10, [1]⟩, ⟨5, 10, [2]⟩],
  [⟨1, 1, [0]⟩, ⟨-1, 1, [2]⟩],
  [⟨5, 10, [1]⟩, ⟨5, 10, [2]⟩]]

/-- computeInterpolationMatrices.py:147-164. -/
def nodal1p3 : List Poly := [
  [⟨-625, 10000, [0]⟩, ⟨625, 10000, [1]⟩, ⟨5625, 10000, [2]⟩, ⟨-5625, 10000, [3]⟩],
  [⟨5625, 10000, [0]⟩, ⟨-16875, 10000, [1]⟩, ⟨-5625, 10000, [2]⟩, ⟨16875, 10000, [3]⟩],
  [⟨5625, 10000, [0]⟩, ⟨16875, 10000, [1]⟩, ⟨-5625, 10000, [2]⟩, ⟨-16875, 10000, [3]⟩],
  [⟨-625, 10000, [0]⟩, ⟨-625, 10000, [1]⟩, ⟨5625, 10000, [2]⟩, ⟨5625, 10000, [3]⟩]]

/-- computeInterpolationMatrices.py:172-190. -/
def nodal1p4 : List Poly := [
  [⟨1, 6, [1]⟩, ⟨-1, 6, [2]⟩, ⟨-2, 3, [3]⟩, ⟨2, 3, [4]⟩],
  [⟨-4, 3, [1]⟩, ⟨8, 3, [2]⟩, ⟨4, 3, [3]⟩, ⟨-8, 3, [4]⟩],
  [⟨1, 1, [0]⟩, ⟨-5, 1, [2]⟩, ⟨4, 1, [4]⟩],
  [⟨4, 3, [1]⟩, ⟨8, 3, [2]⟩, ⟨-4, 3, [3]⟩, ⟨-8, 3, [4]⟩],
  [⟨-1, 6, [1]⟩, ⟨-1, 6, [2]⟩, ⟨2, 3, [3]⟩, ⟨2, 3, [4]⟩]]

/-- computeInterpolationMatrices.py:210-212. -/
def modalMax2p1 : List Poly := [
  [⟨5, 10, [0, 0]⟩],
  [⟨8660254037844385, 10000000000000000, [1, 0]⟩],
  [⟨8660254037844385, 10000000000000000, [0, 1]⟩]]

/-- computeInterpolationMatrices.py:224-233. -/
def modalMax2p2 : List Poly := [
  [⟨5, 10, [0, 0]⟩],
  [⟨8660254037844385, 10000000000000000, [1, 0]⟩],
  [⟨8660254037844385, 10000000000000000, [0, 1]⟩],
  [⟨15, 10, [1, 1]⟩],
  [⟨-5590169943749485, 10000000000000000, [0, 0]⟩, ⟨1677050983124845, 1000000000000000, [2, 0]⟩],
  [⟨-5590169943749485, 10000000000000000, [0, 0]⟩, ⟨1677050983124845, 1000000000000000, [0, 2]⟩]]

/-- computeInterpolationMatrices.py:245-258. -/
def modalMax2p3 : List Poly := [
  [⟨5, 10, [0, 0]⟩],
  [⟨8660254037844385, 10000000000000000, [1, 0]⟩],
  [⟨8660254037844385, 10000000000000000, [0, 1]⟩],
  [⟨15, 10, [1, 1]⟩],
  [⟨-5590169943749485, 10000000000000000, [0, 0]⟩, ⟨1677050983124845, 1000000000000000, [2, 0]⟩],
  [⟨-5590169943749485, 10000000000000000, [0, 0]⟩, ⟨1677050983124845, 1000000000000000, [0, 2]⟩],
  [⟨-9682458365518544, 10000000000000000, [0, 1]⟩, ⟨2904737509655563, 1000000000000000, [2, 1]⟩],
  [⟨-9682458365518544, 10000000000000000, [1, 0]⟩, ⟨2904737509655563, 1000000000000000, [1, 2]⟩],
  [⟨-1984313483298442, 1000000000000000, [1, 0]⟩, ⟨3307189138830737, 1000000000000000, [3, 0]⟩],
  [⟨-1984313483298442, 1000000000000000, [0, 1]⟩, ⟨3307189138830737, 1000000000000000, [0, 3]⟩]]

/-- computeInterpolationMatrices.py:270-288. -/
def modalMax2p4 : List Poly := [
  [⟨5, 10, [0, 0]⟩],
  [⟨8660254037844385, 10000000000000000, [1, 0]⟩],
  [⟨8660254037844385, 10000000000000000, [0, 1]⟩],
  [⟨15, 10, [1, 1]⟩],
  [⟨-5590169943749485, 10000000000000000, [0, 0]⟩, ⟨1677050983124845, 1000000000000000, [2, 0]⟩],
  [⟨-5590169943749485, 10000000000000000, [0, 0]⟩, ⟨1677050983124845, 1000000000000000, [0, 2]⟩],
  [⟨-9682458365518544, 10000000000000000, [0, 1]⟩, ⟨2904737509655563, 1000000000000000, [2, 1]⟩],
  [⟨-9682458365518544, 10000000000000000, [1, 0]⟩, ⟨2904737509655563, 1000000000000000, [1, 2]⟩],
  [⟨-1984313483298442, 1000000000000000, [1, 0]⟩, ⟨3307189138830737, 1000000000000000, [3, 0]⟩],
  [⟨-1984313483298442, 1000000000000000, [0, 1]⟩, ⟨3307189138830737, 1000000000000000, [0, 3]⟩],
  [⟨625, 1000, [0, 0]⟩, ⟨-1875, 1000, [0, 2]⟩, ⟨-1875, 1000, [2, 0]⟩, ⟨5625, 1000, [2, 2]⟩],
  [⟨-3436931771216875, 1000000000000000, [1, 1]⟩, ⟨5728219618694792, 1000000000000000, [3, 1]⟩],
  [⟨-3436931771216875, 1000000000000000, [1, 1]⟩, ⟨5728219618694792, 1000000000000000, [1, 3]⟩],
  [⟨5625, 10000, [0, 0]⟩, ⟨-5625, 1000, [2, 0]⟩, ⟨65625, 10000, [4, 0]⟩],
  [⟨5625, 10000, [0, 0]⟩, ⟨-5625, 1000, [0, 2]⟩, ⟨65625, 10000, [0, 4]⟩]]

/-- computeInterpolationMatrices.py:307-307. -/
def modalSer2p0 : List Poly := [
  [⟨5, 10, [0, 0]⟩]]

/-- computeInterpolationMatrices.py:318-320. -/
def modalSer2p1 : List Poly := [
  [⟨5, 10, [0, 0]⟩],
  [⟨8660254037844385, 10000000000000000, [1, 0]⟩],
  [⟨8660254037844385, 10000000000000000, [0, 1]⟩],
  [⟨15, 10, [1, 1]⟩]]

/-- computeInterpolationMatrices.py:332-343. -/
def modalSer2p2 : List Poly := [
  [⟨5, 10, [0, 0]⟩],
  [⟨8660254037844385, 10000000000000000, [1, 0]⟩],
  [⟨8660254037844385, 10000000000000000, [0, 1]⟩],
  [⟨15, 10, [1, 1]⟩],
  [⟨-5590169943749485, 10000000000000000, [0, 0]⟩, ⟨1677050983124845, 1000000000000000, [2, 0]⟩],
  [⟨-5590169943749485, 10000000000000000, [0, 0]⟩, ⟨1677050983124845, 1000000000000000, [0, 2]⟩],
  [⟨-9682458365518544, 10000000000000000, [0, 1]⟩, ⟨2904737509655563, 1000000000000000, [2, 1]⟩],
  [⟨-9682458365518544, 10000000000000000, [1, 0]⟩, ⟨2904737509655563, 1000000000000000, [1, 2]⟩]]

/-- computeInterpolationMatrices.py:355-370. -/
def modalSer2p3 : List Poly := [
  [⟨5, 10, [0, 0]⟩],
  [⟨8660254037844385, 10000000000000000, [1, 0]⟩],
  [⟨8660254037844385, 10000000000000000, [0, 1]⟩],
  [⟨15, 10, [1, 1]⟩],
  [⟨-5590169943749485, 10000000000000000, [0, 0]⟩, ⟨1677050983124845, 1000000000000000, [2, 0]⟩],
  [⟨-5590169943749485, 10000000000000000, [0, 0]⟩, ⟨1677050983124845, 1000000000000000, [0, 2]⟩],
  [⟨-9682458365518544, 10000000000000000, [0, 1]⟩, ⟨2904737509655563, 1000000000000000, [2, 1]⟩],
  [⟨-9682458365518544, 10000000000000000, [1, 0]⟩, ⟨2904737509655563, 1000000000000000, [1, 2]⟩],
  [⟨-1984313483298442, 1000000000000000, [1, 0]⟩, ⟨3307189138830737, 1000000000000000, [3, 0]⟩],
  [⟨-1984313483298442, 1000000000000000, [0, 1]⟩, ⟨3307189138830737, 1000000000000000, [0, 3]⟩],
  [⟨-3436931771216875, 1000000000000000, [1, 1]⟩, ⟨5728219618694792, 1000000000000000, [3, 1]⟩],
  [⟨-3436931771216875, 1000000000000000, [1, 1]⟩, ⟨5728219618694792, 1000000000000000, [1, 3]⟩]]

/-- computeInterpolationMatrices.py:382-410. -/
def modalSer2p4 : List Poly := [
  [⟨5, 10, [0, 0]⟩],
  [⟨8660254037844385, 10000000000000000, [1, 0]⟩],
  [⟨8660254037844385, 10000000000000000, [0, 1]⟩],
  [⟨15, 10, [1, 1]⟩],
  [⟨-5590169943749485, 10000000000000000, [0, 0]⟩, ⟨1677050983124845, 1000000000000000, [2, 0]⟩],
  [⟨-5590169943749485, 10000000000000000, [0, 0]⟩, ⟨1677050983124845, 1000000000000000, [0, 2]⟩],
  [⟨-9682458365518544, 10000000000000000, [0, 1]⟩, ⟨2904737509655563, 1000000000000000, [2, 1]⟩],
  [⟨-9682458365518544, 10000000000000000, [1, 0]⟩, ⟨2904737509655563, 1000000000000000, [1, 2]⟩],
  [⟨-1984313483298442, 1000000000000000, [1, 0]⟩, ⟨3307189138830737, 1000000000000000, [3, 0]⟩],
  [⟨-1984313483298442, 1000000000000000, [0, 1]⟩, ⟨3307189138830737, 1000000000000000, [0, 3]⟩],
  [⟨625, 1000, [0, 0]⟩, ⟨-1875, 1000, [0, 2]⟩, ⟨-1875, 1000, [2, 0]⟩, ⟨5625, 1000, [2, 2]⟩],
  [⟨-3436931771216875, 1000000000000000, [1, 1]⟩, ⟨5728219618694792, 1000000000000000, [3, 1]⟩],
  [⟨-3436931771216875, 1000000000000000, [1, 1]⟩, ⟨5728219618694792, 1000000000000000, [1, 3]⟩],
  [⟨5625, 10000, [0, 0]⟩, ⟨-5625, 1000, [2, 0]⟩, ⟨65625, 10000, [4, 0]⟩],
  [⟨5625, 10000, [0, 0]⟩, ⟨-5625, 1000, [0, 2]⟩, ⟨65625, 10000, [0, 4]⟩],
  [⟨9742785792574921, 10000000000000000, [0, 1]⟩, ⟨-974278579257492, 100000000000000, [2, 1]⟩, ⟨1136658342467074, 100000000000000, [4, 1]⟩],
  [⟨9742785792574921, 10000000000000000, [1, 0]⟩, ⟨-974278579257492, 100000000000000, [1, 2]⟩, ⟨1136658342467074, 100000000000000, [1, 4]⟩]]

/-- computeInterpolationMatrices.py:429-431. -/
def modalTen2p1 : List Poly := [
  [⟨5, 10, [0, 0]⟩],
  [⟨8660254037844385, 10000000000000000, [1, 0]⟩],
  [⟨8660254037844385, 10000000000000000, [0, 1]⟩],
  [⟨15, 10, [1, 1]⟩]]

/-- computeInterpolationMatrices.py:443-455. -/
def modalTen2p2 : List Poly := [
  [⟨5, 10, [0, 0]⟩],
  [⟨8660254037844385, 10000000000000000, [1, 0]⟩],
  [⟨8660254037844385, 10000000000000000, [0, 1]⟩],
  [⟨15, 10, [1, 1]⟩],
  [⟨-5590169943749485, 10000000000000000, [0, 0]⟩, ⟨1677050983124845, 1000000000000000, [2, 0]⟩],
  [⟨-5590169943749485, 10000000000000000, [0, 0]⟩, ⟨1677050983124845, 1000000000000000, [0, 2]⟩],
  [⟨-9682458365518544, 10000000000000000, [0, 1]⟩, ⟨2904737509655563, 1000000000000000, [2, 1]⟩],
  [⟨-9682458365518544, 10000000000000000, [1, 0]⟩, ⟨2904737509655563, 1000000000000000, [1, 2]⟩],
  [⟨625, 1000, [0, 0]⟩, ⟨-1875, 1000, [0, 2]⟩, ⟨-1875, 1000, [2, 0]⟩, ⟨5625, 1000, [2, 2]⟩]]

/-- computeInterpolationMatrices.py:467-501. -/
def modalTen2p3 : List Poly := [
  [⟨5, 10, [0, 0]⟩],
  [⟨8660254037844385, 10000000000000000, [1, 0]⟩],
  [⟨8660254037844385, 10000000000000000, [0, 1]⟩],
  [⟨15, 10, [1, 1]⟩],
  [⟨-5590169943749485, 10000000000000000, [0, 0]⟩, ⟨1677050983124845, 1000000000000000, [2, 0]⟩],
  [⟨-5590169943749485, 10000000000000000, [0, 0]⟩, ⟨1677050983124845, 1000000000000000, [0, 2]⟩],
  [⟨-9682458365518544, 10000000000000000, [0, 1]⟩, ⟨2904737509655563, 1000000000000000, [2, 1]⟩],
  [⟨-9682458365518544, 10000000000000000, [1, 0]⟩, ⟨2904737509655563, 1000000000000000, [1, 2]⟩],
  [⟨-1984313483298442, 1000000000000000, [1, 0]⟩, ⟨3307189138830737, 1000000000000000, [3, 0]⟩],
  [⟨-1984313483298442, 1000000000000000, [0, 1]⟩, ⟨3307189138830737, 1000000000000000, [0, 3]⟩],
  [⟨625, 1000, [0, 0]⟩, ⟨-1875, 1000, [0, 2]⟩, ⟨-1875, 1000, [2, 0]⟩, ⟨5625, 1000, [2, 2]⟩],
  [⟨-3436931771216875, 1000000000000000, [1, 1]⟩, ⟨5728219618694792, 1000000000000000, [3, 1]⟩],
  [⟨-3436931771216875, 1000000000000000, [1, 1]⟩, ⟨5728219618694792, 1000000000000000, [1, 3]⟩],
  [⟨2218529918662355, 1000000000000000, [1, 0]⟩, ⟨-6655589755987068, 1000000000000000, [1, 2]⟩, ⟨-369754986443726, 100000000000000, [3, 0]⟩, ⟨1109264959331178, 100000000000000, [3, 2]⟩],
  [⟨2218529918662355, 1000000000000000, [0, 1]⟩, ⟨-369754986443726, 100000000000000, [0, 3]⟩, ⟨-6655589755987068, 1000000000000000, [2, 1]⟩, ⟨1109264959331178, 100000000000000, [2, 3]⟩],
  [⟨7875, 1000, [1, 1]⟩, ⟨-13125, 1000, [1, 3]⟩, ⟨-13125, 1000, [3, 1]⟩, ⟨21875, 1000, [3, 3]⟩]]

/-- computeInterpolationMatrices.py:520-527. -/
def nodalSer2p1 : List Poly := [
  [⟨25, 100, [0, 0]⟩, ⟨-25, 100, [0, 1]⟩, ⟨-25, 100, [1, 0]⟩, ⟨25, 100, [1, 1]⟩],
  [⟨25, 100, [0, 0]⟩, ⟨-25, 100, [0, 1]⟩, ⟨25, 100, [1, 0]⟩, ⟨-25, 100, [1, 1]⟩],
  [⟨25, 100, [0, 0]⟩, ⟨25, 100, [0, 1]⟩, ⟨-25, 100, [1, 0]⟩, ⟨-25, 100, [1, 1]⟩],
  [⟨25, 100, [0, 0]⟩, ⟨25, 100, [0, 1]⟩, ⟨25, 100, [1, 0]⟩, ⟨25, 100, [1, 1]⟩]]

/-- computeInterpolationMatrices.py:539-578. -/
def nodalSer2p2 : List Poly := [
  [⟨-25, 100, [0, 0]⟩, ⟨25, 100, [0, 2]⟩, ⟨25, 100, [1, 1]⟩, ⟨-25, 100, [1, 2]⟩, ⟨25, 100, [2, 0]⟩, ⟨-25, 100, [2, 1]⟩],
  [⟨5, 10, [0, 0]⟩, ⟨-5, 10, [0, 1]⟩, ⟨-5, 10, [2, 0]⟩, ⟨5, 10, [2, 1]⟩],
  [⟨-25, 100, [0, 0]⟩, ⟨25, 100, [0, 2]⟩, ⟨-25, 100, [1, 1]⟩, ⟨25, 100, [1, 2]⟩, ⟨25, 100, [2, 0]⟩, ⟨-25, 100, [2, 1]⟩],
  [⟨5, 10, [0, 0]⟩, ⟨-5, 10, [0, 2]⟩, ⟨-5, 10, [1, 0]⟩, ⟨5, 10, [1, 2]⟩],
  [⟨5, 10, [0, 0]⟩, ⟨-5, 10, [0, 2]⟩, ⟨5, 10, [1, 0]⟩, ⟨-5, 10, [1, 2]⟩],
  [⟨-25, 100, [0, 0]⟩, ⟨25, 100, [0, 2]⟩, ⟨-25, 100, [1, 1]⟩, ⟨-25, 100, [1, 2]⟩, ⟨25, 100, [2, 0]⟩, ⟨25, 100, [2, 1]⟩],
  [⟨5, 10, [0, 0]⟩, ⟨5, 10, [0, 1]⟩, ⟨-5, 10, [2, 0]⟩, ⟨-5, 10, [2, 1]⟩],
  [⟨-25, 100, [0, 0]⟩, ⟨25, 100, [0, 2]⟩, ⟨25, 100, [1, 1]⟩, ⟨25, 100, [1, 2]⟩, ⟨25, 100, [2, 0]⟩, ⟨25, 100, [2, 1]⟩]]

/-- computeInterpolationMatrices.py:597-606. -/
def modalGkh2p1 : List Poly := [
  [⟨5, 10, [0, 0]⟩],
  [⟨8660254037844386, 10000000000000000, [1, 0]⟩],
  [⟨8660254037844386, 10000000000000000, [0, 1]⟩],
  [⟨15, 10, [1, 1]⟩],
  [⟨-5590169943749472774316338958386, 10000000000000000000000000000000, [0, 0]⟩, ⟨1677050983124842, 1000000000000000, [0, 2]⟩],
  [⟨-9682458365518542365087496781479, 10000000000000000000000000000000, [1, 0]⟩, ⟨2904737509655563, 1000000000000000, [1, 2]⟩]]

/-- computeInterpolationMatrices.py:631-640. -/
def modalHyb2p1 : List Poly := [
  [⟨5, 10, [0, 0]⟩],
  [⟨8660254037844386, 10000000000000000, [1, 0]⟩],
  [⟨8660254037844386, 10000000000000000, [0, 1]⟩],
  [⟨15, 10, [1, 1]⟩],
  [⟨-5590169943749472774316338958386, 10000000000000000000000000000000, [0, 0]⟩, ⟨1677050983124842, 1000000000000000, [0, 2]⟩],
  [⟨-9682458365518542365087496781479, 10000000000000000000000000000000, [1, 0]⟩, ⟨2904737509655563, 1000000000000000, [1, 2]⟩]]

/-- computeInterpolationMatrices.py:674-681. -/
def modalMax3p1 : List Poly := [
  [⟨3535533905932734, 10000000000000000, [0, 0, 0]⟩],
  [⟨6123724356957931, 10000000000000000, [1, 0, 0]⟩],
  [⟨6123724356957931, 10000000000000000, [0, 1, 0]⟩],
  [⟨6123724356957931, 10000000000000000, [0, 0, 1]⟩]]

/-- computeInterpolationMatrices.py:705-718. -/
def modalMax3p2 : List Poly := [
  [⟨3535533905932734, 10000000000000000, [0, 0, 0]⟩],
  [⟨6123724356957931, 10000000000000000, [1, 0, 0]⟩],
  [⟨6123724356957931, 10000000000000000, [0, 1, 0]⟩],
  [⟨6123724356957931, 10000000000000000, [0, 0, 1]⟩],
  [⟨1060660171779822, 1000000000000000, [1, 1, 0]⟩],
  [⟨1060660171779822, 1000000000000000, [1, 0, 1]⟩],
  [⟨1060660171779822, 1000000000000000, [0, 1, 1]⟩],
  [⟨-3952847075210471, 10000000000000000, [0, 0, 0]⟩, ⟨1185854122563141, 1000000000000000, [2, 0, 0]⟩],
  [⟨-3952847075210471, 10000000000000000, [0, 0, 0]⟩, ⟨1185854122563141, 1000000000000000, [0, 2, 0]⟩],
  [⟨-3952847075210471, 10000000000000000, [0, 0, 0]⟩, ⟨1185854122563141, 1000000000000000, [0, 0, 2]⟩]]

/-- computeInterpolationMatrices.py:742-765. -/
def modalMax3p3 : List Poly := [
  [⟨3535533905932734, 10000000000000000, [0, 0, 0]⟩],
  [⟨6123724356957931, 10000000000000000, [1, 0, 0]⟩],
  [⟨6123724356957931, 10000000000000000, [0, 1, 0]⟩],
  [⟨6123724356957931, 10000000000000000, [0, 0, 1]⟩],
  [⟨1060660171779822, 1000000000000000, [1, 1, 0]⟩],
  [⟨1060660171779822, 1000000000000000, [1, 0, 1]⟩],
  [⟨1060660171779822, 1000000000000000, [0, 1, 1]⟩],
  [⟨-3952847075210471, 10000000000000000, [0, 0, 0]⟩, ⟨1185854122563141, 1000000000000000, [2, 0, 0]⟩],
  [⟨-3952847075210471, 10000000000000000, [0, 0, 0]⟩, ⟨1185854122563141, 1000000000000000, [0, 2, 0]⟩],
  [⟨-3952847075210471, 10000000000000000, [0, 0, 0]⟩, ⟨1185854122563141, 1000000000000000, [0, 0, 2]⟩],
  [⟨1837117307087383, 1000000000000000, [1, 1, 1]⟩],
  [⟨-6846531968814578, 10000000000000000, [0, 1, 0]⟩, ⟨2053959590644373, 1000000000000000, [2, 1, 0]⟩],
  [⟨-6846531968814578, 10000000000000000, [1, 0, 0]⟩, ⟨2053959590644373, 1000000000000000, [1, 2, 0]⟩],
  [⟨-6846531968814578, 10000000000000000, [0, 0, 1]⟩, ⟨2053959590644373, 1000000000000000, [2, 0, 1]⟩],
  [⟨-6846531968814578, 10000000000000000, [0, 0, 1]⟩, ⟨2053959590644373, 1000000000000000, [0, 2, 1]⟩],
  [⟨-6846531968814578, 10000000000000000, [1, 0, 0]⟩, ⟨2053959590644373, 1000000000000000, [1, 0, 2]⟩],
  [⟨-6846531968814578, 10000000000000000, [0, 1, 0]⟩, ⟨2053959590644373, 1000000000000000, [0, 1, 2]⟩],
  [⟨-1403121520040228, 1000000000000000, [1, 0, 0]⟩, ⟨2338535866733713, 1000000000000000, [3, 0, 0]⟩],
  [⟨-1403121520040228, 1000000000000000, [0, 1, 0]⟩, ⟨2338535866733713, 1000000000000000, [0, 3, 0]⟩],
  [⟨-1403121520040228, 1000000000000000, [0, 0, 1]⟩, ⟨2338535866733713, 1000000000000000, [0, 0, 3]⟩]]

/-- computeInterpolationMatrices.py:789-854. -/
def modalMax3p4 : List Poly := [
  [⟨3535533905932734, 10000000000000000, [0, 0, 0]⟩],
  [⟨6123724356957931, 10000000000000000, [1, 0, 0]⟩],
  [⟨6123724356957931, 10000000000000000, [0, 1, 0]⟩],
  [⟨6123724356957931, 10000000000000000, [0, 0, 1]⟩],
  [⟨1060660171779822, 1000000000000000, [1, 1, 0]⟩],
  [⟨1060660171779822, 1000000000000000, [1, 0, 1]⟩],
  [⟨1060660171779822, 1000000000000000, [0, 1, 1]⟩],
  [⟨-3952847075210471, 10000000000000000, [0, 0, 0]⟩, ⟨1185854122563141, 1000000000000000, [2, 0, 0]⟩],
  [⟨-3952847075210471, 10000000000000000, [0, 0, 0]⟩, ⟨1185854122563141, 1000000000000000, [0, 2, 0]⟩],
  [⟨-3952847075210471, 10000000000000000, [0, 0, 0]⟩, ⟨1185854122563141, 1000000000000000, [0, 0, 2]⟩],
  [⟨1837117307087383, 1000000000000000, [1, 1, 1]⟩],
  [⟨-6846531968814578, 10000000000000000, [0, 1, 0]⟩, ⟨2053959590644373, 1000000000000000, [2, 1, 0]⟩],
  [⟨-6846531968814578, 10000000000000000, [1, 0, 0]⟩, ⟨2053959590644373, 1000000000000000, [1, 2, 0]⟩],
  [⟨-6846531968814578, 10000000000000000, [0, 0, 1]⟩, ⟨2053959590644373, 1000000000000000, [2, 0, 1]⟩],
  [⟨-6846531968814578, 10000000000000000, [0, 0, 1]⟩, ⟨2053959590644373, 1000000000000000, [0, 2, 1]⟩],
  [⟨-6846531968814578, 10000000000000000, [1, 0, 0]⟩, ⟨2053959590644373, 1000000000000000, [1, 0, 2]⟩],
  [⟨-6846531968814578, 10000000000000000, [0, 1, 0]⟩, ⟨2053959590644373, 1000000000000000, [0, 1, 2]⟩],
  [⟨-1403121520040228, 1000000000000000, [1, 0, 0]⟩, ⟨2338535866733713, 1000000000000000, [3, 0, 0]⟩],
  [⟨-1403121520040228, 1000000000000000, [0, 1, 0]⟩, ⟨2338535866733713, 1000000000000000, [0, 3, 0]⟩],
  [⟨-1403121520040228, 1000000000000000, [0, 0, 1]⟩, ⟨2338535866733713, 1000000000000000, [0, 0, 3]⟩],
  [⟨-1185854122563141, 1000000000000000, [0, 1, 1]⟩, ⟨3557562367689424, 1000000000000000, [2, 1, 1]⟩],
  [⟨-1185854122563141, 1000000000000000, [1, 0, 1]⟩, ⟨3557562367689424, 1000000000000000, [1, 2, 1]⟩],
  [⟨-1185854122563141, 1000000000000000, [1, 1, 0]⟩, ⟨3557562367689424, 1000000000000000, [1, 1, 2]⟩],
  [⟨4419417382415923, 10000000000000000, [0, 0, 0]⟩, ⟨-1325825214724777, 1000000000000000, [0, 2, 0]⟩, ⟨-1325825214724777, 1000000000000000, [2, 0, 0]⟩, ⟨3977475644174331, 1000000000000000, [2, 2, 0]⟩],
  [⟨4419417382415923, 10000000000000000, [0, 0, 0]⟩, ⟨-1325825214724777, 1000000000000000, [0, 0, 2]⟩, ⟨-1325825214724777, 1000000000000000, [2, 0, 0]⟩, ⟨3977475644174331, 1000000000000000, [2, 0, 2]⟩],
  [⟨4419417382415923, 10000000000000000, [0, 0, 0]⟩, ⟨-1325825214724777, 1000000000000000, [0, 0, 2]⟩, ⟨-1325825214724777, 1000000000000000, [0, 2, 0]⟩, ⟨3977475644174331, 1000000000000000, [0, 2, 2]⟩],
  [⟨-2430277761902947, 1000000000000000, [1, 1, 0]⟩, ⟨4050462936504911, 1000000000000000, [3, 1, 0]⟩],
  [⟨-2430277761902947, 1000000000000000, [1, 1, 0]⟩, ⟨4050462936504911, 1000000000000000, [1, 3, 0]⟩],
  [⟨-2430277761902947, 1000000000000000, [1, 0, 1]⟩, ⟨4050462936504911, 1000000000000000, [3, 0, 1]⟩],
  [⟨-2430277761902947, 1000000000000000, [0, 1, 1]⟩, ⟨4050462936504911, 1000000000000000, [0, 3, 1]⟩],
  [⟨-2430277761902947, 1000000000000000, [1, 0, 1]⟩, ⟨4050462936504911, 1000000000000000, [1, 0, 3]⟩],
  [⟨-2430277761902947, 1000000000000000, [0, 1, 1]⟩, ⟨4050462936504911, 1000000000000000, [0, 1, 3]⟩],
  [⟨3977475644174325, 10000000000000000, [0, 0, 0]⟩, ⟨-3977475644174326, 1000000000000000, [2, 0, 0]⟩, ⟨4640388251536713, 1000000000000000, [4, 0, 0]⟩],
  [⟨3977475644174325, 10000000000000000, [0, 0, 0]⟩, ⟨-3977475644174326, 1000000000000000, [0, 2, 0]⟩, ⟨4640388251536713, 1000000000000000, [0, 4, 0]⟩],
  [⟨3977475644174325, 10000000000000000, [0, 0, 0]⟩, ⟨-3977475644174326, 1000000000000000, [0, 0, 2]⟩, ⟨4640388251536713, 1000000000000000, [0, 0, 4]⟩]]

/-- computeInterpolationMatrices.py:885-885. -/
def modalSer3p0 : List Poly := [
  [⟨3535533905932734, 10000000000000000, [0, 0, 0]⟩]]

/-- computeInterpolationMatrices.py:908-919. -/
def modalSer3p1 : List Poly := [
  [⟨3535533905932734, 10000000000000000, [0, 0, 0]⟩],
  [⟨6123724356957931, 10000000000000000, [1, 0, 0]⟩],
  [⟨6123724356957931, 10000000000000000, [0, 1, 0]⟩],
  [⟨6123724356957931, 10000000000000000, [0, 0, 1]⟩],
  [⟨1060660171779822, 1000000000000000, [1, 1, 0]⟩],
  [⟨1060660171779822, 1000000000000000, [1, 0, 1]⟩],
  [⟨1060660171779822, 1000000000000000, [0, 1, 1]⟩],
  [⟨1837117307087383, 1000000000000000, [1, 1, 1]⟩]]

/-- computeInterpolationMatrices.py:943-966. -/
def modalSer3p2 : List Poly := [
  [⟨3535533905932734, 10000000000000000, [0, 0, 0]⟩],
  [⟨6123724356957931, 10000000000000000, [1, 0, 0]⟩],
  [⟨6123724356957931, 10000000000000000, [0, 1, 0]⟩],
  [⟨6123724356957931, 10000000000000000, [0, 0, 1]⟩],
  [⟨1060660171779822, 1000000000000000, [1, 1, 0]⟩],
  [⟨1060660171779822, 1000000000000000, [1, 0, 1]⟩],
  [⟨1060660171779822, 1000000000000000, [0, 1, 1]⟩],
  [⟨-3952847075210471, 10000000000000000, [0, 0, 0]⟩, ⟨1185854122563141, 1000000000000000, [2, 0, 0]⟩],
  [⟨-3952847075210471, 10000000000000000, [0, 0, 0]⟩, ⟨1185854122563141, 1000000000000000, [0, 2, 0]⟩],
  [⟨-3952847075210471, 10000000000000000, [0, 0, 0]⟩, ⟨1185854122563141, 1000000000000000, [0, 0, 2]⟩],
  [⟨1837117307087383, 1000000000000000, [1, 1, 1]⟩],
  [⟨-6846531968814578, 10000000000000000, [0, 1, 0]⟩, ⟨2053959590644373, 1000000000000000, [2, 1, 0]⟩],
  [⟨-6846531968814578, 10000000000000000, [1, 0, 0]⟩, ⟨2053959590644373, 1000000000000000, [1, 2, 0]⟩],
  [⟨-6846531968814578, 10000000000000000, [0, 0, 1]⟩, ⟨2053959590644373, 1000000000000000, [2, 0, 1]⟩],
  [⟨-6846531968814578, 10000000000000000, [0, 0, 1]⟩, ⟨2053959590644373, 1000000000000000, [0, 2, 1]⟩],
  [⟨-6846531968814578, 10000000000000000, [1, 0, 0]⟩, ⟨2053959590644373, 1000000000000000, [1, 0, 2]⟩],
  [⟨-6846531968814578, 10000000000000000, [0, 1, 0]⟩, ⟨2053959590644373, 1000000000000000, [0, 1, 2]⟩],
  [⟨-1185854122563141, 1000000000000000, [0, 1, 1]⟩, ⟨3557562367689424, 1000000000000000, [2, 1, 1]⟩],
  [⟨-1185854122563141, 1000000000000000, [1, 0, 1]⟩, ⟨3557562367689424, 1000000000000000, [1, 2, 1]⟩],
  [⟨-1185854122563141, 1000000000000000, [1, 1, 0]⟩, ⟨3557562367689424, 1000000000000000, [1, 1, 2]⟩]]

/-- computeInterpolationMatrices.py:990-1025. -/
def modalSer3p3 : List Poly := [
  [⟨3535533905932734, 10000000000000000, [0, 0, 0]⟩],
  [⟨6123724356957931, 10000000000000000, [1, 0, 0]⟩],
  [⟨6123724356957931, 10000000000000000, [0, 1, 0]⟩],
  [⟨6123724356957931, 10000000000000000, [0, 0, 1]⟩],
  [⟨1060660171779822, 1000000000000000, [1, 1, 0]⟩],
  [⟨1060660171779822, 1000000000000000, [1, 0, 1]⟩],
  [⟨1060660171779822, 1000000000000000, [0, 1, 1]⟩],
  [⟨-3952847075210471, 10000000000000000, [0, 0, 0]⟩, ⟨1185854122563141, 1000000000000000, [2, 0, 0]⟩],
  [⟨-3952847075210471, 10000000000000000, [0, 0, 0]⟩, ⟨1185854122563141, 1000000000000000, [0, 2, 0]⟩],
  [⟨-3952847075210471, 10000000000000000, [0, 0, 0]⟩, ⟨1185854122563141, 1000000000000000, [0, 0, 2]⟩],
  [⟨1837117307087383, 1000000000000000, [1, 1, 1]⟩],
  [⟨-6846531968814578, 10000000000000000, [0, 1, 0]⟩, ⟨2053959590644373, 1000000000000000, [2, 1, 0]⟩],
  [⟨-6846531968814578, 10000000000000000, [1, 0, 0]⟩, ⟨2053959590644373, 1000000000000000, [1, 2, 0]⟩],
  [⟨-6846531968814578, 10000000000000000, [0, 0, 1]⟩, ⟨2053959590644373, 1000000000000000, [2, 0, 1]⟩],
  [⟨-6846531968814578, 10000000000000000, [0, 0, 1]⟩, ⟨2053959590644373, 1000000000000000, [0, 2, 1]⟩],
  [⟨-6846531968814578, 10000000000000000, [1, 0, 0]⟩, ⟨2053959590644373, 1000000000000000, [1, 0, 2]⟩],
  [⟨-6846531968814578, 10000000000000000, [0, 1, 0]⟩, ⟨2053959590644373, 1000000000000000, [0, 1, 2]⟩],
  [⟨-1403121520040228, 1000000000000000, [1, 0, 0]⟩, ⟨2338535866733713, 1000000000000000, [3, 0, 0]⟩],
  [⟨-1403121520040228, 1000000000000000, [0, 1, 0]⟩, ⟨2338535866733713, 1000000000000000, [0, 3, 0]⟩],
  [⟨-1403121520040228, 1000000000000000, [0, 0, 1]⟩, ⟨2338535866733713, 1000000000000000, [0, 0, 3]⟩],
  [⟨-1185854122563141, 1000000000000000, [0, 1, 1]⟩, ⟨3557562367689424, 1000000000000000, [2, 1, 1]⟩],
  [⟨-1185854122563141, 1000000000000000, [1, 0, 1]⟩, ⟨3557562367689424, 1000000000000000, [1, 2, 1]⟩],
  [⟨-1185854122563141, 1000000000000000, [1, 1, 0]⟩, ⟨3557562367689424, 1000000000000000, [1, 1, 2]⟩],
  [⟨-2430277761902947, 1000000000000000, [1, 1, 0]⟩, ⟨4050462936504911, 1000000000000000, [3, 1, 0]⟩],
  [⟨-2430277761902947, 1000000000000000, [1, 1, 0]⟩, ⟨4050462936504911, 1000000000000000, [1, 3, 0]⟩],
  [⟨-2430277761902947, 1000000000000000, [1, 0, 1]⟩, ⟨4050462936504911, 1000000000000000, [3, 0, 1]⟩],
  [⟨-2430277761902947, 1000000000000000, [0, 1, 1]⟩, ⟨4050462936504911, 1000000000000000, [0, 3, 1]⟩],
  [⟨-2430277761902947, 1000000000000000, [1, 0, 1]⟩, ⟨4050462936504911, 1000000000000000, [1, 0, 3]⟩],
  [⟨-2430277761902947, 1000000000000000, [0, 1, 1]⟩, ⟨4050462936504911, 1000000000000000, [0, 1, 3]⟩],
  [⟨-4209364560120682, 1000000000000000, [1, 1, 1]⟩, ⟨7015607600201137, 1000000000000000, [3, 1, 1]⟩],
  [⟨-4209364560120682, 1000000000000000, [1, 1, 1]⟩, ⟨7015607600201137, 1000000000000000, [1, 3, 1]⟩],
  [⟨-4209364560120682, 1000000000000000, [1, 1, 1]⟩, ⟨7015607600201137, 1000000000000000, [1, 1, 3]⟩]]

/-- computeInterpolationMatrices.py:1049-1180. -/
def modalSer3p4 : List Poly := [
  [⟨3535533905932734, 10000000000000000, [0, 0, 0]⟩],
  [⟨6123724356957931, 10000000000000000, [1, 0, 0]⟩],
  [⟨6123724356957931, 10000000000000000, [0, 1, 0]⟩],
  [⟨6123724356957931, 10000000000000000, [0, 0, 1]⟩],
  [⟨1060660171779822, 1000000000000000, [1, 1, 0]⟩],
  [⟨1060660171779822, 1000000000000000, [1, 0, 1]⟩],
  [⟨1060660171779822, 1000000000000000, [0, 1, 1]⟩],
  [⟨-3952847075210471, 10000000000000000, [0, 0, 0]⟩, ⟨1185854122563141, 1000000000000000, [2, 0, 0]⟩],
  [⟨-3952847075210471, 10000000000000000, [0, 0, 0]⟩, ⟨1185854122563141, 1000000000000000, [0, 2, 0]⟩],
  [⟨-3952847075210471, 10000000000000000, [0, 0, 0]⟩, ⟨1185854122563141, 1000000000000000, [0, 0, 2]⟩],
  [⟨1837117307087383, 1000000000000000, [1, 1, 1]⟩],
  [⟨-6846531968814578, 10000000000000000, [0, 1, 0]⟩, ⟨2053959590644373, 1000000000000000, [2, 1, 0]⟩],
  [⟨-6846531968814578, 10000000000000000, [1, 0, 0]⟩, ⟨2053959590644373, 1000000000000000, [1, 2, 0]⟩],
  [⟨-6846531968814578, 10000000000000000, [0, 0, 1]⟩, ⟨2053959590644373, 1000000000000000, [2, 0, 1]⟩],
  [⟨-6846531968814578, 10000000000000000, [0, 0, 1]⟩, ⟨2053959590644373, 1000000000000000, [0, 2, 1]⟩],
  [⟨-6846531968814578, 10000000000000000, [1, 0, 0]⟩, ⟨2053959590644373, 1000000000000000, [1, 0, 2]⟩],
  [⟨-6846531968814578, 10000000000000000, [0, 1, 0]⟩, ⟨2053959590644373, 1000000000000000, [0, 1, 2]⟩],
  [⟨-1403121520040228, 1000000000000000, [1, 0, 0]⟩, ⟨2338535866733713, 1000000000000000, [3, 0, 0]⟩],
  [⟨-1403121520040228, 1000000000000000, [0, 1, 0]⟩, ⟨2338535866733713, 1000000000000000, [0, 3, 0]⟩],
  [⟨-1403121520040228, 1000000000000000, [0, 0, 1]⟩, ⟨2338535866733713, 1000000000000000, [0, 0, 3]⟩],
  [⟨-1185854122563141, 1000000000000000, [0, 1, 1]⟩, ⟨3557562367689424, 1000000000000000, [2, 1, 1]⟩],
  [⟨-1185854122563141, 1000000000000000, [1, 0, 1]⟩, ⟨3557562367689424, 1000000000000000, [1, 2, 1]⟩],
  [⟨-1185854122563141, 1000000000000000, [1, 1, 0]⟩, ⟨3557562367689424, 1000000000000000, [1, 1, 2]⟩],
  [⟨4419417382415923, 10000000000000000, [0, 0, 0]⟩, ⟨-1325825214724777, 1000000000000000, [0, 2, 0]⟩, ⟨-1325825214724777, 1000000000000000, [2, 0, 0]⟩, ⟨3977475644174331, 1000000000000000, [2, 2, 0]⟩],
  [⟨4419417382415923, 10000000000000000, [0, 0, 0]⟩, ⟨-1325825214724777, 1000000000000000, [0, 0, 2]⟩, ⟨-1325825214724777, 1000000000000000, [2, 0, 0]⟩, ⟨3977475644174331, 1000000000000000, [2, 0, 2]⟩],
  [⟨4419417382415923, 10000000000000000, [0, 0, 0]⟩, ⟨-1325825214724777, 1000000000000000, [0, 0, 2]⟩, ⟨-1325825214724777, 1000000000000000, [0, 2, 0]⟩, ⟨3977475644174331, 1000000000000000, [0, 2, 2]⟩],
  [⟨-2430277761902947, 1000000000000000, [1, 1, 0]⟩, ⟨4050462936504911, 1000000000000000, [3, 1, 0]⟩],
  [⟨-2430277761902947, 1000000000000000, [1, 1, 0]⟩, ⟨4050462936504911, 1000000000000000, [1, 3, 0]⟩],
  [⟨-2430277761902947, 1000000000000000, [1, 0, 1]⟩, ⟨4050462936504911, 1000000000000000, [3, 0, 1]⟩],
  [⟨-2430277761902947, 1000000000000000, [0, 1, 1]⟩, ⟨4050462936504911, 1000000000000000, [0, 3, 1]⟩],
  [⟨-2430277761902947, 1000000000000000, [1, 0, 1]⟩, ⟨4050462936504911, 1000000000000000, [1, 0, 3]⟩],
  [⟨-2430277761902947, 1000000000000000, [0, 1, 1]⟩, ⟨4050462936504911, 1000000000000000, [0, 1, 3]⟩],
  [⟨3977475644174325, 10000000000000000, [0, 0, 0]⟩, ⟨-3977475644174326, 1000000000000000, [2, 0, 0]⟩, ⟨4640388251536713, 1000000000000000, [4, 0, 0]⟩],
  [⟨3977475644174325, 10000000000000000, [0, 0, 0]⟩, ⟨-3977475644174326, 1000000000000000, [0, 2, 0]⟩, ⟨4640388251536713, 1000000000000000, [0, 4, 0]⟩],
  [⟨3977475644174325, 10000000000000000, [0, 0, 0]⟩, ⟨-3977475644174326, 1000000000000000, [0, 0, 2]⟩, ⟨4640388251536713, 1000000000000000, [0, 0, 4]⟩],
  [⟨7654655446197414, 10000000000000000, [0, 0, 1]⟩, ⟨-2296396633859224, 1000000000000000, [0, 2, 1]⟩, ⟨-2296396633859224, 1000000000000000, [2, 0, 1]⟩, ⟨6889189901577672, 1000000000000000, [2, 2, 1]⟩],
  [⟨7654655446197414, 10000000000000000, [0, 1, 0]⟩, ⟨-2296396633859224, 1000000000000000, [0, 1, 2]⟩, ⟨-2296396633859224, 1000000000000000, [2, 1, 0]⟩, ⟨6889189901577672, 1000000000000000, [2, 1, 2]⟩],
  [⟨7654655446197414, 10000000000000000, [1, 0, 0]⟩, ⟨-2296396633859224, 1000000000000000, [1, 0, 2]⟩, ⟨-2296396633859224, 1000000000000000, [1, 2, 0]⟩, ⟨6889189901577672, 1000000000000000, [1, 2, 2]⟩],
  [⟨-4209364560120682, 1000000000000000, [1, 1, 1]⟩, ⟨7015607600201137, 1000000000000000, [3, 1, 1]⟩],
  [⟨-4209364560120682, 1000000000000000, [1, 1, 1]⟩, ⟨7015607600201137, 1000000000000000, [1, 3, 1]⟩],
  [⟨-4209364560120682, 1000000000000000, [1, 1, 1]⟩, ⟨7015607600201137, 1000000000000000, [1, 1, 3]⟩],
  [⟨6889189901577677, 10000000000000000, [0, 1, 0]⟩, ⟨-6889189901577677, 1000000000000000, [2, 1, 0]⟩, ⟨803738821850729, 100000000000000, [4, 1, 0]⟩],
  [⟨6889189901577677, 10000000000000000, [1, 0, 0]⟩, ⟨-6889189901577677, 1000000000000000, [1, 2, 0]⟩, ⟨803738821850729, 100000000000000, [1, 4, 0]⟩],
  [⟨6889189901577677, 10000000000000000, [0, 0, 1]⟩, ⟨-6889189901577677, 1000000000000000, [2, 0, 1]⟩, ⟨803738821850729, 100000000000000, [4, 0, 1]⟩],
  [⟨6889189901577677, 10000000000000000, [0, 0, 1]⟩, ⟨-6889189901577677, 1000000000000000, [0, 2, 1]⟩, ⟨803738821850729, 100000000000000, [0, 4, 1]⟩],
  [⟨6889189901577677, 10000000000000000, [1, 0, 0]⟩, ⟨-6889189901577677, 1000000000000000, [1, 0, 2]⟩, ⟨803738821850729, 100000000000000, [1, 0, 4]⟩],
  [⟨6889189901577677, 10000000000000000, [0, 1, 0]⟩, ⟨-6889189901577677, 1000000000000000, [0, 1, 2]⟩, ⟨803738821850729, 100000000000000, [0, 1, 4]⟩],
  [⟨1193242693252298, 1000000000000000, [0, 1, 1]⟩, ⟨-1193242693252298, 100000000000000, [2, 1, 1]⟩, ⟨1392116475461014, 100000000000000, [4, 1, 1]⟩],
  [⟨1193242693252298, 1000000000000000, [1, 0, 1]⟩, ⟨-1193242693252298, 100000000000000, [1, 2, 1]⟩, ⟨1392116475461014, 100000000000000, [1, 4, 1]⟩],
  [⟨1193242693252298, 1000000000000000, [1, 1, 0]⟩, ⟨-1193242693252298, 100000000000000, [1, 1, 2]⟩, ⟨1392116475461014, 100000000000000, [1, 1, 4]⟩]]

/-- computeInterpolationMatrices.py:1211-1222. -/
def modalTen3p1 : List Poly := [
  [⟨3535533905932734, 10000000000000000, [0, 0, 0]⟩],
  [⟨6123724356957931, 10000000000000000, [1, 0, 0]⟩],
  [⟨6123724356957931, 10000000000000000, [0, 1, 0]⟩],
  [⟨6123724356957931, 10000000000000000, [0, 0, 1]⟩],
  [⟨1060660171779822, 1000000000000000, [1, 1, 0]⟩],
  [⟨1060660171779822, 1000000000000000, [1, 0, 1]⟩],
  [⟨1060660171779822, 1000000000000000, [0, 1, 1]⟩],
  [⟨1837117307087383, 1000000000000000, [1, 1, 1]⟩]]

/-- computeInterpolationMatrices.py:1246-1315. -/
def modalTen3p2 : List Poly := [
  [⟨3535533905932734, 10000000000000000, [0, 0, 0]⟩],
  [⟨6123724356957931, 10000000000000000, [1, 0, 0]⟩],
  [⟨6123724356957931, 10000000000000000, [0, 1, 0]⟩],
  [⟨6123724356957931, 10000000000000000, [0, 0, 1]⟩],
  [⟨1060660171779822, 1000000000000000, [1, 1, 0]⟩],
  [⟨1060660171779822, 1000000000000000, [1, 0, 1]⟩],
  [⟨1060660171779822, 1000000000000000, [0, 1, 1]⟩],
  [⟨-3952847075210471, 10000000000000000, [0, 0, 0]⟩, ⟨1185854122563141, 1000000000000000, [2, 0, 0]⟩],
  [⟨-3952847075210471, 10000000000000000, [0, 0, 0]⟩, ⟨1185854122563141, 1000000000000000, [0, 2, 0]⟩],
  [⟨-3952847075210471, 10000000000000000, [0, 0, 0]⟩, ⟨1185854122563141, 1000000000000000, [0, 0, 2]⟩],
  [⟨1837117307087383, 1000000000000000, [1, 1, 1]⟩],
  [⟨-6846531968814578, 10000000000000000, [0, 1, 0]⟩, ⟨2053959590644373, 1000000000000000, [2, 1, 0]⟩],
  [⟨-6846531968814578, 10000000000000000, [1, 0, 0]⟩, ⟨2053959590644373, 1000000000000000, [1, 2, 0]⟩],
  [⟨-6846531968814578, 10000000000000000, [0, 0, 1]⟩, ⟨2053959590644373, 1000000000000000, [2, 0, 1]⟩],
  [⟨-6846531968814578, 10000000000000000, [0, 0, 1]⟩, ⟨2053959590644373, 1000000000000000, [0, 2, 1]⟩],
  [⟨-6846531968814578, 10000000000000000, [1, 0, 0]⟩, ⟨2053959590644373, 1000000000000000, [1, 0, 2]⟩],
  [⟨-6846531968814578, 10000000000000000, [0, 1, 0]⟩, ⟨2053959590644373, 1000000000000000, [0, 1, 2]⟩],
  [⟨-1185854122563141, 1000000000000000, [0, 1, 1]⟩, ⟨3557562367689424, 1000000000000000, [2, 1, 1]⟩],
  [⟨-1185854122563141, 1000000000000000, [1, 0, 1]⟩, ⟨3557562367689424, 1000000000000000, [1, 2, 1]⟩],
  [⟨-1185854122563141, 1000000000000000, [1, 1, 0]⟩, ⟨3557562367689424, 1000000000000000, [1, 1, 2]⟩],
  [⟨441941738241592, 1000000000000000, [0, 0, 0]⟩, ⟨-1325825214724776, 1000000000000000, [0, 2, 0]⟩, ⟨-1325825214724776, 1000000000000000, [2, 0, 0]⟩, ⟨3977475644174328, 1000000000000000, [2, 2, 0]⟩],
  [⟨441941738241592, 1000000000000000, [0, 0, 0]⟩, ⟨-1325825214724776, 1000000000000000, [0, 0, 2]⟩, ⟨-1325825214724776, 1000000000000000, [2, 0, 0]⟩, ⟨3977475644174328, 1000000000000000, [2, 0, 2]⟩],
  [⟨441941738241592, 1000000000000000, [0, 0, 0]⟩, ⟨-1325825214724776, 1000000000000000, [0, 0, 2]⟩, ⟨-1325825214724776, 1000000000000000, [0, 2, 0]⟩, ⟨3977475644174328, 1000000000000000, [0, 2, 2]⟩],
  [⟨7654655446197425, 10000000000000000, [0, 0, 1]⟩, ⟨-2296396633859227, 1000000000000000, [0, 2, 1]⟩, ⟨-2296396633859227, 1000000000000000, [2, 0, 1]⟩, ⟨6889189901577683, 1000000000000000, [2, 2, 1]⟩],
  [⟨7654655446197425, 10000000000000000, [0, 1, 0]⟩, ⟨-2296396633859227, 1000000000000000, [0, 1, 2]⟩, ⟨-2296396633859227, 1000000000000000, [2, 1, 0]⟩, ⟨6889189901577683, 1000000000000000, [2, 1, 2]⟩],
  [⟨7654655446197425, 10000000000000000, [1, 0, 0]⟩, ⟨-2296396633859227, 1000000000000000, [1, 0, 2]⟩, ⟨-2296396633859227, 1000000000000000, [1, 2, 0]⟩, ⟨6889189901577683, 1000000000000000, [1, 2, 2]⟩],
  [⟨-4941058844013091, 10000000000000000, [0, 0, 0]⟩, ⟨1482317653203927, 1000000000000000, [0, 0, 2]⟩, ⟨1482317653203927, 1000000000000000, [0, 2, 0]⟩, ⟨-4446952959611782, 1000000000000000, [0, 2, 2]⟩, ⟨1482317653203927, 1000000000000000, [2, 0, 0]⟩, ⟨-4446952959611782, 1000000000000000, [2, 0, 2]⟩, ⟨-4446952959611782, 1000000000000000, [2, 2, 0]⟩, ⟨1334085887883535, 100000000000000, [2, 2, 2]⟩]]

/-- computeInterpolationMatrices.py:1339-1598. -/
def modalTen3p3 : List Poly := [
  [⟨3535533905932734, 10000000000000000, [0, 0, 0]⟩],
  [⟨6123724356957931, 10000000000000000, [1, 0, 0]⟩],
  [⟨6123724356957931, 10000000000000000, [0, 1, 0]⟩],
  [⟨6123724356957931, 10000000000000000, [0, 0, 1]⟩],
  [⟨1060660171779822, 1000000000000000, [1, 1, 0]⟩],
  [⟨1060660171779822, 1000000000000000, [1, 0, 1]⟩],
  [⟨1060660171779822, 1000000000000000, [0, 1, 1]⟩],
  [⟨-3952847075210471, 10000000000000000, [0, 0, 0]⟩, ⟨1185854122563141, 1000000000000000, [2, 0, 0]⟩],
  [⟨-3952847075210471, 10000000000000000, [0, 0, 0]⟩, ⟨1185854122563141, 1000000000000000, [0, 2, 0]⟩],
  [⟨-3952847075210471, 10000000000000000, [0, 0, 0]⟩, ⟨1185854122563141, 1000000000000000, [0, 0, 2]⟩],
  [⟨1837117307087383, 1000000000000000, [1, 1, 1]⟩],
  [⟨-6846531968814578, 10000000000000000, [0, 1, 0]⟩, ⟨2053959590644373, 1000000000000000, [2, 1, 0]⟩],
  [⟨-6846531968814578, 10000000000000000, [1, 0, 0]⟩, ⟨2053959590644373, 1000000000000000, [1, 2, 0]⟩],
  [⟨-6846531968814578, 10000000000000000, [0, 0, 1]⟩, ⟨2053959590644373, 1000000000000000, [2, 0, 1]⟩],
  [⟨-6846531968814578, 10000000000000000, [0, 0, 1]⟩, ⟨2053959590644373, 1000000000000000, [0, 2, 1]⟩],
  [⟨-6846531968814578, 10000000000000000, [1, 0, 0]⟩, ⟨2053959590644373, 1000000000000000, [1, 0, 2]⟩],
  [⟨-6846531968814578, 10000000000000000, [0, 1, 0]⟩, ⟨2053959590644373, 1000000000000000, [0, 1, 2]⟩],
  [⟨-1403121520040228, 1000000000000000, [1, 0, 0]⟩, ⟨2338535866733713, 1000000000000000, [3, 0, 0]⟩],
  [⟨-1403121520040228, 1000000000000000, [0, 1, 0]⟩, ⟨2338535866733713, 1000000000000000, [0, 3, 0]⟩],
  [⟨-1403121520040228, 1000000000000000, [0, 0, 1]⟩, ⟨2338535866733713, 1000000000000000, [0, 0, 3]⟩],
  [⟨-1185854122563141, 1000000000000000, [0, 1, 1]⟩, ⟨3557562367689424, 1000000000000000, [2, 1, 1]⟩],
  [⟨-1185854122563141, 1000000000000000, [1, 0, 1]⟩, ⟨3557562367689424, 1000000000000000, [1, 2, 1]⟩],
  [⟨-1185854122563141, 1000000000000000, [1, 1, 0]⟩, ⟨3557562367689424, 1000000000000000, [1, 1, 2]⟩],
  [⟨441941738241592, 1000000000000000, [0, 0, 0]⟩, ⟨-1325825214724776, 1000000000000000, [0, 2, 0]⟩, ⟨-1325825214724776, 1000000000000000, [2, 0, 0]⟩, ⟨3977475644174328, 1000000000000000, [2, 2, 0]⟩],
  [⟨441941738241592, 1000000000000000, [0, 0, 0]⟩, ⟨-1325825214724776, 1000000000000000, [0, 0, 2]⟩, ⟨-1325825214724776, 1000000000000000, [2, 0, 0]⟩, ⟨3977475644174328, 1000000000000000, [2, 0, 2]⟩],
  [⟨441941738241592, 1000000000000000, [0, 0, 0]⟩, ⟨-1325825214724776, 1000000000000000, [0, 0, 2]⟩, ⟨-1325825214724776, 1000000000000000, [0, 2, 0]⟩, ⟨3977475644174328, 1000000000000000, [0, 2, 2]⟩],
  [⟨-2430277761902947, 1000000000000000, [1, 1, 0]⟩, ⟨4050462936504911, 1000000000000000, [3, 1, 0]⟩],
  [⟨-2430277761902947, 1000000000000000, [1, 1, 0]⟩, ⟨4050462936504911, 1000000000000000, [1, 3, 0]⟩],
  [⟨-2430277761902947, 1000000000000000, [1, 0, 1]⟩, ⟨4050462936504911, 1000000000000000, [3, 0, 1]⟩],
  [⟨-2430277761902947, 1000000000000000, [0, 1, 1]⟩, ⟨4050462936504911, 1000000000000000, [0, 3, 1]⟩],
  [⟨-2430277761902947, 1000000000000000, [1, 0, 1]⟩, ⟨4050462936504911, 1000000000000000, [1, 0, 3]⟩],
  [⟨-2430277761902947, 1000000000000000, [0, 1, 1]⟩, ⟨4050462936504911, 1000000000000000, [0, 1, 3]⟩],
  [⟨7654655446197425, 10000000000000000, [0, 0, 1]⟩, ⟨-2296396633859227, 1000000000000000, [0, 2, 1]⟩, ⟨-2296396633859227, 1000000000000000, [2, 0, 1]⟩, ⟨6889189901577683, 1000000000000000, [2, 2, 1]⟩],
  [⟨7654655446197425, 10000000000000000, [0, 1, 0]⟩, ⟨-2296396633859227, 1000000000000000, [0, 1, 2]⟩, ⟨-2296396633859227, 1000000000000000, [2, 1, 0]⟩, ⟨6889189901577683, 1000000000000000, [2, 1, 2]⟩],
  [⟨7654655446197425, 10000000000000000, [1, 0, 0]⟩, ⟨-2296396633859227, 1000000000000000, [1, 0, 2]⟩, ⟨-2296396633859227, 1000000000000000, [1, 2, 0]⟩, ⟨6889189901577683, 1000000000000000, [1, 2, 2]⟩],
  [⟨-4209364560120682, 1000000000000000, [1, 1, 1]⟩, ⟨7015607600201137, 1000000000000000, [3, 1, 1]⟩],
  [⟨-4209364560120682, 1000000000000000, [1, 1, 1]⟩, ⟨7015607600201137, 1000000000000000, [1, 3, 1]⟩],
  [⟨-4209364560120682, 1000000000000000, [1, 1, 1]⟩, ⟨7015607600201137, 1000000000000000, [1, 1, 3]⟩],
  [⟨156873754975139, 100000000000000, [1, 0, 0]⟩, ⟨-4706212649254172, 1000000000000000, [1, 2, 0]⟩, ⟨-2614562582918984, 1000000000000000, [3, 0, 0]⟩, ⟨7843687748756954, 1000000000000000, [3, 2, 0]⟩],
  [⟨156873754975139, 100000000000000, [0, 1, 0]⟩, ⟨-2614562582918984, 1000000000000000, [0, 3, 0]⟩, ⟨-4706212649254172, 1000000000000000, [2, 1, 0]⟩, ⟨7843687748756954, 1000000000000000, [2, 3, 0]⟩],
  [⟨156873754975139, 100000000000000, [1, 0, 0]⟩, ⟨-4706212649254172, 1000000000000000, [1, 0, 2]⟩, ⟨-2614562582918984, 1000000000000000, [3, 0, 0]⟩, ⟨7843687748756954, 1000000000000000, [3, 0, 2]⟩],
  [⟨156873754975139, 100000000000000, [0, 1, 0]⟩, ⟨-4706212649254172, 1000000000000000, [0, 1, 2]⟩, ⟨-2614562582918984, 1000000000000000, [0, 3, 0]⟩, ⟨7843687748756954, 1000000000000000, [0, 3, 2]⟩],
  [⟨156873754975139, 100000000000000, [0, 0, 1]⟩, ⟨-2614562582918984, 1000000000000000, [0, 0, 3]⟩, ⟨-4706212649254172, 1000000000000000, [2, 0, 1]⟩, ⟨7843687748756954, 1000000000000000, [2, 0, 3]⟩],
  [⟨156873754975139, 100000000000000, [0, 0, 1]⟩, ⟨-2614562582918984, 1000000000000000, [0, 0, 3]⟩, ⟨-4706212649254172, 1000000000000000, [0, 2, 1]⟩, ⟨7843687748756954, 1000000000000000, [0, 2, 3]⟩],
  [⟨-4941058844013091, 10000000000000000, [0, 0, 0]⟩, ⟨1482317653203927, 1000000000000000, [0, 0, 2]⟩, ⟨1482317653203927, 1000000000000000, [0, 2, 0]⟩, ⟨-4446952959611782, 1000000000000000, [0, 2, 2]⟩, ⟨1482317653203927, 1000000000000000, [2, 0, 0]⟩, ⟨-4446952959611782, 1000000000000000, [2, 0, 2]⟩, ⟨-4446952959611782, 1000000000000000, [2, 2, 0]⟩, ⟨1334085887883535, 100000000000000, [2, 2, 2]⟩],
  [⟨2717133139910518, 1000000000000000, [1, 0, 1]⟩, ⟨-8151399419731556, 1000000000000000, [1, 2, 1]⟩, ⟨-4528555233184197, 1000000000000000, [3, 0, 1]⟩, ⟨1358566569955259, 100000000000000, [3, 2, 1]⟩],
  [⟨2717133139910518, 1000000000000000, [0, 1, 1]⟩, ⟨-4528555233184197, 1000000000000000, [0, 3, 1]⟩, ⟨-8151399419731556, 1000000000000000, [2, 1, 1]⟩, ⟨1358566569955259, 100000000000000, [2, 3, 1]⟩],
  [⟨2717133139910518, 1000000000000000, [1, 1, 0]⟩, ⟨-8151399419731556, 1000000000000000, [1, 1, 2]⟩, ⟨-4528555233184197, 1000000000000000, [3, 1, 0]⟩, ⟨1358566569955259, 100000000000000, [3, 1, 2]⟩],
  [⟨2717133139910518, 1000000000000000, [1, 1, 0]⟩, ⟨-8151399419731556, 1000000000000000, [1, 1, 2]⟩, ⟨-4528555233184197, 1000000000000000, [1, 3, 0]⟩, ⟨1358566569955259, 100000000000000, [1, 3, 2]⟩],
  [⟨2717133139910518, 1000000000000000, [0, 1, 1]⟩, ⟨-4528555233184197, 1000000000000000, [0, 1, 3]⟩, ⟨-8151399419731556, 1000000000000000, [2, 1, 1]⟩, ⟨1358566569955259, 100000000000000, [2, 1, 3]⟩],
  [⟨2717133139910518, 1000000000000000, [1, 0, 1]⟩, ⟨-4528555233184197, 1000000000000000, [1, 0, 3]⟩, ⟨-8151399419731556, 1000000000000000, [1, 2, 1]⟩, ⟨1358566569955259, 100000000000000, [1, 2, 3]⟩],
  [⟨5568465901844059, 1000000000000000, [1, 1, 0]⟩, ⟨-9280776503073431, 1000000000000000, [1, 3, 0]⟩, ⟨-9280776503073431, 1000000000000000, [3, 1, 0]⟩, ⟨1546796083845572, 100000000000000, [3, 3, 0]⟩],
  [⟨5568465901844059, 1000000000000000, [1, 0, 1]⟩, ⟨-9280776503073431, 1000000000000000, [1, 0, 3]⟩, ⟨-9280776503073431, 1000000000000000, [3, 0, 1]⟩, ⟨1546796083845572, 100000000000000, [3, 0, 3]⟩],
  [⟨5568465901844059, 1000000000000000, [0, 1, 1]⟩, ⟨-9280776503073431, 1000000000000000, [0, 1, 3]⟩, ⟨-9280776503073431, 1000000000000000, [0, 3, 1]⟩, ⟨1546796083845572, 100000000000000, [0, 3, 3]⟩],
  [⟨-1753901900050284, 1000000000000000, [1, 0, 0]⟩, ⟨5261705700150851, 1000000000000000, [1, 0, 2]⟩, ⟨5261705700150851, 1000000000000000, [1, 2, 0]⟩, ⟨-1578511710045256, 100000000000000, [1, 2, 2]⟩, ⟨292316983341714, 100000000000000, [3, 0, 0]⟩, ⟨-876950950025142, 100000000000000, [3, 0, 2]⟩, ⟨-876950950025142, 100000000000000, [3, 2, 0]⟩, ⟨2630852850075426, 100000000000000, [3, 2, 2]⟩],
  [⟨-1753901900050284, 1000000000000000, [0, 1, 0]⟩, ⟨5261705700150851, 1000000000000000, [0, 1, 2]⟩, ⟨292316983341714, 100000000000000, [0, 3, 0]⟩, ⟨-876950950025142, 100000000000000, [0, 3, 2]⟩, ⟨5261705700150851, 1000000000000000, [2, 1, 0]⟩, ⟨-1578511710045256, 100000000000000, [2, 1, 2]⟩, ⟨-876950950025142, 100000000000000, [2, 3, 0]⟩, ⟨2630852850075426, 100000000000000, [2, 3, 2]⟩],
  [⟨-1753901900050284, 1000000000000000, [0, 0, 1]⟩, ⟨292316983341714, 100000000000000, [0, 0, 3]⟩, ⟨5261705700150851, 1000000000000000, [0, 2, 1]⟩, ⟨-876950950025142, 100000000000000, [0, 2, 3]⟩, ⟨5261705700150851, 1000000000000000, [2, 0, 1]⟩, ⟨-876950950025142, 100000000000000, [2, 0, 3]⟩, ⟨-1578511710045256, 100000000000000, [2, 2, 1]⟩, ⟨2630852850075426, 100000000000000, [2, 2, 3]⟩],
  [⟨9644865862208759, 1000000000000000, [1, 1, 1]⟩, ⟨-160747764370146, 10000000000000, [1, 3, 1]⟩, ⟨-160747764370146, 10000000000000, [3, 1, 1]⟩, ⟨26791294061691, 1000000000000, [3, 3, 1]⟩],
  [⟨9644865862208759, 1000000000000000, [1, 1, 1]⟩, ⟨-160747764370146, 10000000000000, [1, 1, 3]⟩, ⟨-160747764370146, 10000000000000, [3, 1, 1]⟩, ⟨26791294061691, 1000000000000, [3, 1, 3]⟩],
  [⟨9644865862208759, 1000000000000000, [1, 1, 1]⟩, ⟨-160747764370146, 10000000000000, [1, 1, 3]⟩, ⟨-160747764370146, 10000000000000, [1, 3, 1]⟩, ⟨26791294061691, 1000000000000, [1, 3, 3]⟩],
  [⟨-6225734143456492, 1000000000000000, [1, 1, 0]⟩, ⟨1867720243036948, 100000000000000, [1, 1, 2]⟩, ⟨1037622357242749, 100000000000000, [1, 3, 0]⟩, ⟨-3112867071728247, 100000000000000, [1, 3, 2]⟩, ⟨1037622357242749, 100000000000000, [3, 1, 0]⟩, ⟨-3112867071728247, 100000000000000, [3, 1, 2]⟩, ⟨-1729370595404582, 100000000000000, [3, 3, 0]⟩, ⟨5188111786213746, 100000000000000, [3, 3, 2]⟩],
  [⟨-6225734143456492, 1000000000000000, [1, 0, 1]⟩, ⟨1037622357242749, 100000000000000, [1, 0, 3]⟩, ⟨1867720243036948, 100000000000000, [1, 2, 1]⟩, ⟨-3112867071728247, 100000000000000, [1, 2, 3]⟩, ⟨1037622357242749, 100000000000000, [3, 0, 1]⟩, ⟨-1729370595404582, 100000000000000, [3, 0, 3]⟩, ⟨-3112867071728247, 100000000000000, [3, 2, 1]⟩, ⟨5188111786213746, 100000000000000, [3, 2, 3]⟩],
  [⟨-6225734143456492, 1000000000000000, [0, 1, 1]⟩, ⟨1037622357242749, 100000000000000, [0, 1, 3]⟩, ⟨1037622357242749, 100000000000000, [0, 3, 1]⟩, ⟨-1729370595404582, 100000000000000, [0, 3, 3]⟩, ⟨1867720243036948, 100000000000000, [2, 1, 1]⟩, ⟨-3112867071728247, 100000000000000, [2, 1, 3]⟩, ⟨-3112867071728247, 100000000000000, [2, 3, 1]⟩, ⟨5188111786213746, 100000000000000, [2, 3, 3]⟩],
  [⟨-2209916394063358, 100000000000000, [1, 1, 1]⟩, ⟨3683193990105597, 100000000000000, [1, 1, 3]⟩, ⟨3683193990105597, 100000000000000, [1, 3, 1]⟩, ⟨-6138656650175994, 100000000000000, [1, 3, 3]⟩, ⟨3683193990105597, 100000000000000, [3, 1, 1]⟩, ⟨-6138656650175994, 100000000000000, [3, 1, 3]⟩, ⟨-6138656650175994, 100000000000000, [3, 3, 1]⟩, ⟨1023109441695999, 10000000000000, [3, 3, 3]⟩]]

/-- computeInterpolationMatrices.py:1629-1644. -/
def modalGkh3p1 : List Poly := [
  [⟨3535533905932737, 10000000000000000, [0, 0, 0]⟩],
  [⟨6123724356957944, 10000000000000000, [1, 0, 0]⟩],
  [⟨6123724356957944, 10000000000000000, [0, 1, 0]⟩],
  [⟨6123724356957944, 10000000000000000, [0, 0, 1]⟩],
  [⟨1060660171779821, 1000000000000000, [1, 1, 0]⟩],
  [⟨1060660171779821, 1000000000000000, [1, 0, 1]⟩],
  [⟨1060660171779821, 1000000000000000, [0, 1, 1]⟩],
  [⟨1837117307087383, 1000000000000000, [1, 1, 1]⟩],
  [⟨-3952847075210472938048625812286, 10000000000000000000000000000000, [0, 0, 0]⟩, ⟨1185854122563142, 1000000000000000, [0, 2, 0]⟩],
  [⟨-6846531968814572648680136451876, 10000000000000000000000000000000, [1, 0, 0]⟩, ⟨2053959590644372, 1000000000000000, [1, 2, 0]⟩],
  [⟨-6846531968814572648680136451876, 10000000000000000000000000000000, [0, 0, 1]⟩, ⟨2053959590644372, 1000000000000000, [0, 2, 1]⟩],
  [⟨-11858541225631415480812544103525, 10000000000000000000000000000000, [1, 0, 1]⟩, ⟨3557562367689425, 1000000000000000, [1, 2, 1]⟩]]

/-- computeInterpolationMatrices.py:1678-1693. -/
def modalHyb3p1 : List Poly := [
  [⟨3535533905932737, 10000000000000000, [0, 0, 0]⟩],
  [⟨6123724356957945, 10000000000000000, [1, 0, 0]⟩],
  [⟨6123724356957945, 10000000000000000, [0, 1, 0]⟩],
  [⟨6123724356957945, 10000000000000000, [0, 0, 1]⟩],
  [⟨1060660171779821, 1000000000000000, [1, 1, 0]⟩],
  [⟨1060660171779821, 1000000000000000, [1, 0, 1]⟩],
  [⟨1060660171779821, 1000000000000000, [0, 1, 1]⟩],
  [⟨1837117307087384, 1000000000000000, [1, 1, 1]⟩],
  [⟨-3952847075210472938048625812286, 10000000000000000000000000000000, [0, 0, 0]⟩, ⟨1185854122563142, 1000000000000000, [0, 0, 2]⟩],
  [⟨-6846531968814575982013469785209, 10000000000000000000000000000000, [1, 0, 0]⟩, ⟨2053959590644373, 1000000000000000, [1, 0, 2]⟩],
  [⟨-6846531968814575982013469785209, 10000000000000000000000000000000, [0, 1, 0]⟩, ⟨2053959590644373, 1000000000000000, [0, 1, 2]⟩],
  [⟨-11858541225631418589916843080764, 10000000000000000000000000000000, [1, 1, 0]⟩, ⟨3557562367689427, 1000000000000000, [1, 1, 2]⟩]]

/-- computeInterpolationMatrices.py:1727-1810. -/
def nodalSer3p1 : List Poly := [
  [⟨125, 1000, [0, 0, 0]⟩, ⟨-125, 1000, [0, 0, 1]⟩, ⟨-125, 1000, [0, 1, 0]⟩, ⟨125, 1000, [0, 1, 1]⟩, ⟨-125, 1000, [1, 0, 0]⟩, ⟨125, 1000, [1, 0, 1]⟩, ⟨125, 1000, [1, 1, 0]⟩, ⟨-125, 1000, [1, 1, 1]⟩],
  [⟨125, 1000, [0, 0, 0]⟩, ⟨-125, 1000, [0, 0, 1]⟩, ⟨-125, 1000, [0, 1, 0]⟩, ⟨125, 1000, [0, 1, 1]⟩, ⟨125, 1000, [1, 0, 0]⟩, ⟨-125, 1000, [1, 0, 1]⟩, ⟨-125, 1000, [1, 1, 0]⟩, ⟨125, 1000, [1, 1, 1]⟩],
  [⟨125, 1000, [0, 0, 0]⟩, ⟨-125, 1000, [0, 0, 1]⟩, ⟨125, 1000, [0, 1, 0]⟩, ⟨-125, 1000, [0, 1, 1]⟩, ⟨-125, 1000, [1, 0, 0]⟩, ⟨125, 1000, [1, 0, 1]⟩, ⟨-125, 1000, [1, 1, 0]⟩, ⟨125, 1000, [1, 1, 1]⟩],
  [⟨125, 1000, [0, 0, 0]⟩, ⟨-125, 1000, [0, 0, 1]⟩, ⟨125, 1000, [0, 1, 0]⟩, ⟨-125, 1000, [0, 1, 1]⟩, ⟨125, 1000, [1, 0, 0]⟩, ⟨-125, 1000, [1, 0, 1]⟩, ⟨125, 1000, [1, 1, 0]⟩, ⟨-125, 1000, [1, 1, 1]⟩],
  [⟨125, 1000, [0, 0, 0]⟩, ⟨125, 1000, [0, 0, 1]⟩, ⟨-125, 1000, [0, 1, 0]⟩, ⟨-125, 1000, [0, 1, 1]⟩, ⟨-125, 1000, [1, 0, 0]⟩, ⟨-125, 1000, [1, 0, 1]⟩, ⟨125, 1000, [1, 1, 0]⟩, ⟨125, 1000, [1, 1, 1]⟩],
  [⟨125, 1000, [0, 0, 0]⟩, ⟨125, 1000, [0, 0, 1]⟩, ⟨-125, 1000, [0, 1, 0]⟩, ⟨-125, 1000, [0, 1, 1]⟩, ⟨125, 1000, [1, 0, 0]⟩, ⟨125, 1000, [1, 0, 1]⟩, ⟨-125, 1000, [1, 1, 0]⟩, ⟨-125, 1000, [1, 1, 1]⟩],
  [⟨125, 1000, [0, 0, 0]⟩, ⟨125, 1000, [0, 0, 1]⟩, ⟨125, 1000, [0, 1, 0]⟩, ⟨125, 1000, [0, 1, 1]⟩, ⟨-125, 1000, [1, 0, 0]⟩, ⟨-125, 1000, [1, 0, 1]⟩, ⟨-125, 1000, [1, 1, 0]⟩, ⟨-125, 1000, [1, 1, 1]⟩],
  [⟨125, 1000, [0, 0, 0]⟩, ⟨125, 1000, [0, 0, 1]⟩, ⟨125, 1000, [0, 1, 0]⟩, ⟨125, 1000, [0, 1, 1]⟩, ⟨125, 1000, [1, 0, 0]⟩, ⟨125, 1000, [1, 0, 1]⟩, ⟨125, 1000, [1, 1, 0]⟩, ⟨125, 1000, [1, 1, 1]⟩]]

/-- computeInterpolationMatrices.py:1834-2109. -/
def nodalSer3p2 : List Poly := [
  [⟨-25, 100, [0, 0, 0]⟩, ⟨125, 1000, [0, 0, 1]⟩, ⟨125, 1000, [0, 0, 2]⟩, ⟨125, 1000, [0, 1, 0]⟩, ⟨-125, 1000, [0, 1, 2]⟩, ⟨125, 1000, [0, 2, 0]⟩, ⟨-125, 1000, [0, 2, 1]⟩, ⟨125, 1000, [1, 0, 0]⟩, ⟨-125, 1000, [1, 0, 2]⟩, ⟨-125, 1000, [1, 1, 1]⟩, ⟨125, 1000, [1, 1, 2]⟩, ⟨-125, 1000, [1, 2, 0]⟩, ⟨125, 1000, [1, 2, 1]⟩, ⟨125, 1000, [2, 0, 0]⟩, ⟨-125, 1000, [2, 0, 1]⟩, ⟨-125, 1000, [2, 1, 0]⟩, ⟨125, 1000, [2, 1, 1]⟩],
  [⟨25, 100, [0, 0, 0]⟩, ⟨-25, 100, [0, 0, 1]⟩, ⟨-25, 100, [0, 1, 0]⟩, ⟨25, 100, [0, 1, 1]⟩, ⟨-25, 100, [2, 0, 0]⟩, ⟨25, 100, [2, 0, 1]⟩, ⟨25, 100, [2, 1, 0]⟩, ⟨-25, 100, [2, 1, 1]⟩],
  [⟨-25, 100, [0, 0, 0]⟩, ⟨125, 1000, [0, 0, 1]⟩, ⟨125, 1000, [0, 0, 2]⟩, ⟨125, 1000, [0, 1, 0]⟩, ⟨-125, 1000, [0, 1, 2]⟩, ⟨125, 1000, [0, 2, 0]⟩, ⟨-125, 1000, [0, 2, 1]⟩, ⟨-125, 1000, [1, 0, 0]⟩, ⟨125, 1000, [1, 0, 2]⟩, ⟨125, 1000, [1, 1, 1]⟩, ⟨-125, 1000, [1, 1, 2]⟩, ⟨125, 1000, [1, 2, 0]⟩, ⟨-125, 1000, [1, 2, 1]⟩, ⟨125, 1000, [2, 0, 0]⟩, ⟨-125, 1000, [2, 0, 1]⟩, ⟨-125, 1000, [2, 1, 0]⟩, ⟨125, 1000, [2, 1, 1]⟩],
  [⟨25, 100, [0, 0, 0]⟩, ⟨-25, 100, [0, 0, 1]⟩, ⟨-25, 100, [0, 2, 0]⟩, ⟨25, 100, [0, 2, 1]⟩, ⟨-25, 100, [1, 0, 0]⟩, ⟨25, 100, [1, 0, 1]⟩, ⟨25, 100, [1, 2, 0]⟩, ⟨-25, 100, [1, 2, 1]⟩],
  [⟨25, 100, [0, 0, 0]⟩, ⟨-25, 100, [0, 0, 1]⟩, ⟨-25, 100, [0, 2, 0]⟩, ⟨25, 100, [0, 2, 1]⟩, ⟨25, 100, [1, 0, 0]⟩, ⟨-25, 100, [1, 0, 1]⟩, ⟨-25, 100, [1, 2, 0]⟩, ⟨25, 100, [1, 2, 1]⟩],
  [⟨-25, 100, [0, 0, 0]⟩, ⟨125, 1000, [0, 0, 1]⟩, ⟨125, 1000, [0, 0, 2]⟩, ⟨-125, 1000, [0, 1, 0]⟩, ⟨125, 1000, [0, 1, 2]⟩, ⟨125, 1000, [0, 2, 0]⟩, ⟨-125, 1000, [0, 2, 1]⟩, ⟨125, 1000, [1, 0, 0]⟩, ⟨-125, 1000, [1, 0, 2]⟩, ⟨125, 1000, [1, 1, 1]⟩, ⟨-125, 1000, [1, 1, 2]⟩, ⟨-125, 1000, [1, 2, 0]⟩, ⟨125, 1000, [1, 2, 1]⟩, ⟨125, 1000, [2, 0, 0]⟩, ⟨-125, 1000, [2, 0, 1]⟩, ⟨125, 1000, [2, 1, 0]⟩, ⟨-125, 1000, [2, 1, 1]⟩],
  [⟨25, 100, [0, 0, 0]⟩, ⟨-25, 100, [0, 0, 1]⟩, ⟨25, 100, [0, 1, 0]⟩, ⟨-25, 100, [0, 1, 1]⟩, ⟨-25, 100, [2, 0, 0]⟩, ⟨25, 100, [2, 0, 1]⟩, ⟨-25, 100, [2, 1, 0]⟩, ⟨25, 100, [2, 1, 1]⟩],
  [⟨-25, 100, [0, 0, 0]⟩, ⟨125, 1000, [0, 0, 1]⟩, ⟨125, 1000, [0, 0, 2]⟩, ⟨-125, 1000, [0, 1, 0]⟩, ⟨125, 1000, [0, 1, 2]⟩, ⟨125, 1000, [0, 2, 0]⟩, ⟨-125, 1000, [0, 2, 1]⟩, ⟨-125, 1000, [1, 0, 0]⟩, ⟨125, 1000, [1, 0, 2]⟩, ⟨-125, 1000, [1, 1, 1]⟩, ⟨125, 1000, [1, 1, 2]⟩, ⟨125, 1000, [1, 2, 0]⟩, ⟨-125, 1000, [1, 2, 1]⟩, ⟨125, 1000, [2, 0, 0]⟩, ⟨-125, 1000, [2, 0, 1]⟩, ⟨125, 1000, [2, 1, 0]⟩, ⟨-125, 1000, [2, 1, 1]⟩],
  [⟨25, 100, [0, 0, 0]⟩, ⟨-25, 100, [0, 0, 2]⟩, ⟨-25, 100, [0, 1, 0]⟩, ⟨25, 100, [0, 1, 2]⟩, ⟨-25, 100, [1, 0, 0]⟩, ⟨25, 100, [1, 0, 2]⟩, ⟨25, 100, [1, 1, 0]⟩, ⟨-25, 100, [1, 1, 2]⟩],
  [⟨25, 100, [0, 0, 0]⟩, ⟨-25, 100, [0, 0, 2]⟩, ⟨-25, 100, [0, 1, 0]⟩, ⟨25, 100, [0, 1, 2]⟩, ⟨25, 100, [1, 0, 0]⟩, ⟨-25, 100, [1, 0, 2]⟩, ⟨-25, 100, [1, 1, 0]⟩, ⟨25, 100, [1, 1, 2]⟩],
  [⟨25, 100, [0, 0, 0]⟩, ⟨-25, 100, [0, 0, 2]⟩, ⟨25, 100, [0, 1, 0]⟩, ⟨-25, 100, [0, 1, 2]⟩, ⟨-25, 100, [1, 0, 0]⟩, ⟨25, 100, [1, 0, 2]⟩, ⟨-25, 100, [1, 1, 0]⟩, ⟨25, 100, [1, 1, 2]⟩],
  [⟨25, 100, [0, 0, 0]⟩, ⟨-25, 100, [0, 0, 2]⟩, ⟨25, 100, [0, 1, 0]⟩, ⟨-25, 100, [0, 1, 2]⟩, ⟨25, 100, [1, 0, 0]⟩, ⟨-25, 100, [1, 0, 2]⟩, ⟨25, 100, [1, 1, 0]⟩, ⟨-25, 100, [1, 1, 2]⟩],
  [⟨-25, 100, [0, 0, 0]⟩, ⟨-125, 1000, [0, 0, 1]⟩, ⟨125, 1000, [0, 0, 2]⟩, ⟨125, 1000, [0, 1, 0]⟩, ⟨-125, 1000, [0, 1, 2]⟩, ⟨125, 1000, [0, 2, 0]⟩, ⟨125, 1000, [0, 2, 1]⟩, ⟨125, 1000, [1, 0, 0]⟩, ⟨-125, 1000, [1, 0, 2]⟩, ⟨125, 1000, [1, 1, 1]⟩, ⟨125, 1000, [1, 1, 2]⟩, ⟨-125, 1000, [1, 2, 0]⟩, ⟨-125, 1000, [1, 2, 1]⟩, ⟨125, 1000, [2, 0, 0]⟩, ⟨125, 1000, [2, 0, 1]⟩, ⟨-125, 1000, [2, 1, 0]⟩, ⟨-125, 1000, [2, 1, 1]⟩],
  [⟨25, 100, [0, 0, 0]⟩, ⟨25, 100, [0, 0, 1]⟩, ⟨-25, 100, [0, 1, 0]⟩, ⟨-25, 100, [0, 1, 1]⟩, ⟨-25, 100, [2, 0, 0]⟩, ⟨-25, 100, [2, 0, 1]⟩, ⟨25, 100, [2, 1, 0]⟩, ⟨25, 100, [2, 1, 1]⟩],
  [⟨-25, 100, [0, 0, 0]⟩, ⟨-125, 1000, [0, 0, 1]⟩, ⟨125, 1000, [0, 0, 2]⟩, ⟨125, 1000, [0, 1, 0]⟩, ⟨-125, 1000, [0, 1, 2]⟩, ⟨125, 1000, [0, 2, 0]⟩, ⟨125, 1000, [0, 2, 1]⟩, ⟨-125, 1000, [1, 0, 0]⟩, ⟨125, 1000, [1, 0, 2]⟩, ⟨-125, 1000, [1, 1, 1]⟩, ⟨-125, 1000, [1, 1, 2]⟩, ⟨125, 1000, [1, 2, 0]⟩, ⟨125, 1000, [1, 2, 1]⟩, ⟨125, 1000, [2, 0, 0]⟩, ⟨125, 1000, [2, 0, 1]⟩, ⟨-125, 1000, [2, 1, 0]⟩, ⟨-125, 1000, [2, 1, 1]⟩],
  [⟨25, 100, [0, 0, 0]⟩, ⟨25, 100, [0, 0, 1]⟩, ⟨-25, 100, [0, 2, 0]⟩, ⟨-25, 100, [0, 2, 1]⟩, ⟨-25, 100, [1, 0, 0]⟩, ⟨-25, 100, [1, 0, 1]⟩, ⟨25, 100, [1, 2, 0]⟩, ⟨25, 100, [1, 2, 1]⟩],
  [⟨25, 100, [0, 0, 0]⟩, ⟨25, 100, [0, 0, 1]⟩, ⟨-25, 100, [0, 2, 0]⟩, ⟨-25, 100, [0, 2, 1]⟩, ⟨25, 100, [1, 0, 0]⟩, ⟨25, 100, [1, 0, 1]⟩, ⟨-25, 100, [1, 2, 0]⟩, ⟨-25, 100, [1, 2, 1]⟩],
  [⟨-25, 100, [0, 0, 0]⟩, ⟨-125, 1000, [0, 0, 1]⟩, ⟨125, 1000, [0, 0, 2]⟩, ⟨-125, 1000, [0, 1, 0]⟩, ⟨125, 1000, [0, 1, 2]⟩, ⟨125, 1000, [0, 2, 0]⟩, ⟨125, 1000, [0, 2, 1]⟩, ⟨125, 1000, [1, 0, 0]⟩, ⟨-125, 1000, [1, 0, 2]⟩, ⟨-125, 1000, [1, 1, 1]⟩, ⟨-125, 1000, [1, 1, 2]⟩, ⟨-125, 1000, [1, 2, 0]⟩, ⟨-125, 1000, [1, 2, 1]⟩, ⟨125, 1000, [2, 0, 0]⟩, ⟨125, 1000, [2, 0, 1]⟩, ⟨125, 1000, [2, 1, 0]⟩, ⟨125, 1000, [2, 1, 1]⟩],
  [⟨25, 100, [0, 0, 0]⟩, ⟨25, 100, [0, 0, 1]⟩, ⟨25, 100, [0, 1, 0]⟩, ⟨25, 100, [0, 1, 1]⟩, ⟨-25, 100, [2, 0, 0]⟩, ⟨-25, 100, [2, 0, 1]⟩, ⟨-25, 100, [2, 1, 0]⟩, ⟨-25, 100, [2, 1, 1]⟩],
  [⟨-25, 100, [0, 0, 0]⟩, ⟨-125, 1000, [0, 0, 1]⟩, ⟨125, 1000, [0, 0, 2]⟩, ⟨-125, 1000, [0, 1, 0]⟩, ⟨125, 1000, [0, 1, 2]⟩, ⟨125, 1000, [0, 2, 0]⟩, ⟨125, 1000, [0, 2, 1]⟩, ⟨-125, 1000, [1, 0, 0]⟩, ⟨125, 1000, [1, 0, 2]⟩, ⟨125, 1000, [1, 1, 1]⟩, ⟨125, 1000, [1, 1, 2]⟩, ⟨125, 1000, [1, 2, 0]⟩, ⟨125, 1000, [1, 2, 1]⟩, ⟨125, 1000, [2, 0, 0]⟩, ⟨125, 1000, [2, 0, 1]⟩, ⟨125, 1000, [2, 1, 0]⟩, ⟨125, 1000, [2, 1, 1]⟩]]

/-- computeInterpolationMatrices.py:2151-2159. -/
def modalMax4p1 : List Poly := [
  [⟨25, 100, [0, 0, 0, 0]⟩],
  [⟨4330127018922192, 10000000000000000, [1, 0, 0, 0]⟩],
  [⟨4330127018922192, 10000000000000000, [0, 1, 0, 0]⟩],
  [⟨4330127018922192, 10000000000000000, [0, 0, 1, 0]⟩],
  [⟨4330127018922192, 10000000000000000, [0, 0, 0, 1]⟩]]

/-- computeInterpolationMatrices.py:2192-2210. -/
def modalMax4p2 : List Poly := [
  [⟨25, 100, [0, 0, 0, 0]⟩],
  [⟨4330127018922192, 10000000000000000, [1, 0, 0, 0]⟩],
  [⟨4330127018922192, 10000000000000000, [0, 1, 0, 0]⟩],
  [⟨4330127018922192, 10000000000000000, [0, 0, 1, 0]⟩],
  [⟨4330127018922192, 10000000000000000, [0, 0, 0, 1]⟩],
  [⟨75, 100, [1, 1, 0, 0]⟩],
  [⟨75, 100, [1, 0, 1, 0]⟩],
  [⟨75, 100, [0, 1, 1, 0]⟩],
  [⟨75, 100, [1, 0, 0, 1]⟩],
  [⟨75, 100, [0, 1, 0, 1]⟩],
  [⟨75, 100, [0, 0, 1, 1]⟩],
  [⟨-2795084971874732, 10000000000000000, [0, 0, 0, 0]⟩, ⟨8385254915624196, 10000000000000000, [2, 0, 0, 0]⟩],
  [⟨-2795084971874732, 10000000000000000, [0, 0, 0, 0]⟩, ⟨8385254915624196, 10000000000000000, [0, 2, 0, 0]⟩],
  [⟨-2795084971874732, 10000000000000000, [0, 0, 0, 0]⟩, ⟨8385254915624196, 10000000000000000, [0, 0, 2, 0]⟩],
  [⟨-2795084971874732, 10000000000000000, [0, 0, 0, 0]⟩, ⟨8385254915624196, 10000000000000000, [0, 0, 0, 2]⟩]]

/-- computeInterpolationMatrices.py:2243-2281. -/
def modalMax4p3 : List Poly := [
  [⟨25, 100, [0, 0, 0, 0]⟩],
  [⟨4330127018922192, 10000000000000000, [1, 0, 0, 0]⟩],
  [⟨4330127018922192, 10000000000000000, [0, 1, 0, 0]⟩],
  [⟨4330127018922192, 10000000000000000, [0, 0, 1, 0]⟩],
  [⟨4330127018922192, 10000000000000000, [0, 0, 0, 1]⟩],
  [⟨75, 100, [1, 1, 0, 0]⟩],
  [⟨75, 100, [1, 0, 1, 0]⟩],
  [⟨75, 100, [0, 1, 1, 0]⟩],
  [⟨75, 100, [1, 0, 0, 1]⟩],
  [⟨75, 100, [0, 1, 0, 1]⟩],
  [⟨75, 100, [0, 0, 1, 1]⟩],
  [⟨-2795084971874732, 10000000000000000, [0, 0, 0, 0]⟩, ⟨8385254915624196, 10000000000000000, [2, 0, 0, 0]⟩],
  [⟨-2795084971874732, 10000000000000000, [0, 0, 0, 0]⟩, ⟨8385254915624196, 10000000000000000, [0, 2, 0, 0]⟩],
  [⟨-2795084971874732, 10000000000000000, [0, 0, 0, 0]⟩, ⟨8385254915624196, 10000000000000000, [0, 0, 2, 0]⟩],
  [⟨-2795084971874732, 10000000000000000, [0, 0, 0, 0]⟩, ⟨8385254915624196, 10000000000000000, [0, 0, 0, 2]⟩],
  [⟨1299038105676659, 1000000000000000, [1, 1, 1, 0]⟩],
  [⟨1299038105676659, 1000000000000000, [1, 1, 0, 1]⟩],
  [⟨1299038105676659, 1000000000000000, [1, 0, 1, 1]⟩],
  [⟨1299038105676659, 1000000000000000, [0, 1, 1, 1]⟩],
  [⟨-4841229182759272, 10000000000000000, [0, 1, 0, 0]⟩, ⟨1452368754827781, 1000000000000000, [2, 1, 0, 0]⟩],
  [⟨-4841229182759272, 10000000000000000, [1, 0, 0, 0]⟩, ⟨1452368754827781, 1000000000000000, [1, 2, 0, 0]⟩],
  [⟨-4841229182759272, 10000000000000000, [0, 0, 1, 0]⟩, ⟨1452368754827781, 1000000000000000, [2, 0, 1, 0]⟩],
  [⟨-4841229182759272, 10000000000000000, [0, 0, 1, 0]⟩, ⟨1452368754827781, 1000000000000000, [0, 2, 1, 0]⟩],
  [⟨-4841229182759272, 10000000000000000, [1, 0, 0, 0]⟩, ⟨1452368754827781, 1000000000000000, [1, 0, 2, 0]⟩],
  [⟨-4841229182759272, 10000000000000000, [0, 1, 0, 0]⟩, ⟨1452368754827781, 1000000000000000, [0, 1, 2, 0]⟩],
  [⟨-4841229182759272, 10000000000000000, [0, 0, 0, 1]⟩, ⟨1452368754827781, 1000000000000000, [2, 0, 0, 1]⟩],
  [⟨-4841229182759272, 10000000000000000, [0, 0, 0, 1]⟩, ⟨1452368754827781, 1000000000000000, [0, 2, 0, 1]⟩],
  [⟨-4841229182759272, 10000000000000000, [0, 0, 0, 1]⟩, ⟨1452368754827781, 1000000000000000, [0, 0, 2, 1]⟩],
  [⟨-4841229182759272, 10000000000000000, [1, 0, 0, 0]⟩, ⟨1452368754827781, 1000000000000000, [1, 0, 0, 2]⟩],
  [⟨-4841229182759272, 10000000000000000, [0, 1, 0, 0]⟩, ⟨1452368754827781, 1000000000000000, [0, 1, 0, 2]⟩],
  [⟨-4841229182759272, 10000000000000000, [0, 0, 1, 0]⟩, ⟨1452368754827781, 1000000000000000, [0, 0, 1, 2]⟩],
  [⟨-9921567416492196, 10000000000000000, [1, 0, 0, 0]⟩, ⟨1653594569415366, 1000000000000000, [3, 0, 0, 0]⟩],
  [⟨-9921567416492196, 10000000000000000, [0, 1, 0, 0]⟩, ⟨1653594569415366, 1000000000000000, [0, 3, 0, 0]⟩],
  [⟨-9921567416492196, 10000000000000000, [0, 0, 1, 0]⟩, ⟨1653594569415366, 1000000000000000, [0, 0, 3, 0]⟩],
  [⟨-9921567416492196, 10000000000000000, [0, 0, 0, 1]⟩, ⟨1653594569415366, 1000000000000000, [0, 0, 0, 3]⟩]]

/-- computeInterpolationMatrices.py:2314-2387. -/
def modalMax4p4 : List Poly := [
  [⟨25, 100, [0, 0, 0, 0]⟩],
  [⟨4330127018922192, 10000000000000000, [1, 0, 0, 0]⟩],
  [⟨4330127018922192, 10000000000000000, [0, 1, 0, 0]⟩],
  [⟨4330127018922192, 10000000000000000, [0, 0, 1, 0]⟩],
  [⟨4330127018922192, 10000000000000000, [0, 0, 0, 1]⟩],
  [⟨75, 100, [1, 1, 0, 0]⟩],
  [⟨75, 100, [1, 0, 1, 0]⟩],
  [⟨75, 100, [0, 1, 1, 0]⟩],
  [⟨75, 100, [1, 0, 0, 1]⟩],
  [⟨75, 100, [0, 1, 0, 1]⟩],
  [⟨75, 100, [0, 0, 1, 1]⟩],
  [⟨-2795084971874732, 10000000000000000, [0, 0, 0, 0]⟩, ⟨8385254915624196, 10000000000000000, [2, 0, 0, 0]⟩],
  [⟨-2795084971874732, 10000000000000000, [0, 0, 0, 0]⟩, ⟨8385254915624196, 10000000000000000, [0, 2, 0, 0]⟩],
  [⟨-2795084971874732, 10000000000000000, [0, 0, 0, 0]⟩, ⟨8385254915624196, 10000000000000000, [0, 0, 2, 0]⟩],
  [⟨-2795084971874732, 10000000000000000, [0, 0, 0, 0]⟩, ⟨8385254915624196, 10000000000000000, [0, 0, 0, 2]⟩],
  [⟨1299038105676659, 1000000000000000, [1, 1, 1, 0]⟩],
  [⟨1299038105676659, 1000000000000000, [1, 1, 0, 1]⟩],
  [⟨1299038105676659, 1000000000000000, [1, 0, 1, 1]⟩],
  [⟨1299038105676659, 1000000000000000, [0, 1, 1, 1]⟩],
  [⟨-4841229182759272, 10000000000000000, [0, 1, 0, 0]⟩, ⟨1452368754827781, 1000000000000000, [2, 1, 0, 0]⟩],
  [⟨-4841229182759272, 10000000000000000, [1, 0, 0, 0]⟩, ⟨1452368754827781, 1000000000000000, [1, 2, 0, 0]⟩],
  [⟨-4841229182759272, 10000000000000000, [0, 0, 1, 0]⟩, ⟨1452368754827781, 1000000000000000, [2, 0, 1, 0]⟩],
  [⟨-4841229182759272, 10000000000000000, [0, 0, 1, 0]⟩, ⟨1452368754827781, 1000000000000000, [0, 2, 1, 0]⟩],
  [⟨-4841229182759272, 10000000000000000, [1, 0, 0, 0]⟩, ⟨1452368754827781, 1000000000000000, [1, 0, 2, 0]⟩],
  [⟨-4841229182759272, 10000000000000000, [0, 1, 0, 0]⟩, ⟨1452368754827781, 1000000000000000, [0, 1, 2, 0]⟩],
  [⟨-4841229182759272, 10000000000000000, [0, 0, 0, 1]⟩, ⟨1452368754827781, 1000000000000000, [2, 0, 0, 1]⟩],
  [⟨-4841229182759272, 10000000000000000, [0, 0, 0, 1]⟩, ⟨1452368754827781, 1000000000000000, [0, 2, 0, 1]⟩],
  [⟨-4841229182759272, 10000000000000000, [0, 0, 0, 1]⟩, ⟨1452368754827781, 1000000000000000, [0, 0, 2, 1]⟩],
  [⟨-4841229182759272, 10000000000000000, [1, 0, 0, 0]⟩, ⟨1452368754827781, 1000000000000000, [1, 0, 0, 2]⟩],
  [⟨-4841229182759272, 10000000000000000, [0, 1, 0, 0]⟩, ⟨1452368754827781, 1000000000000000, [0, 1, 0, 2]⟩],
  [⟨-4841229182759272, 10000000000000000, [0, 0, 1, 0]⟩, ⟨1452368754827781, 1000000000000000, [0, 0, 1, 2]⟩],
  [⟨-9921567416492196, 10000000000000000, [1, 0, 0, 0]⟩, ⟨1653594569415366, 1000000000000000, [3, 0, 0, 0]⟩],
  [⟨-9921567416492196, 10000000000000000, [0, 1, 0, 0]⟩, ⟨1653594569415366, 1000000000000000, [0, 3, 0, 0]⟩],
  [⟨-9921567416492196, 10000000000000000, [0, 0, 1, 0]⟩, ⟨1653594569415366, 1000000000000000, [0, 0, 3, 0]⟩],
  [⟨-9921567416492196, 10000000000000000, [0, 0, 0, 1]⟩, ⟨1653594569415366, 1000000000000000, [0, 0, 0, 3]⟩],
  [⟨225, 100, [1, 1, 1, 1]⟩],
  [⟨-8385254915624226, 10000000000000000, [0, 1, 1, 0]⟩, ⟨2515576474687268, 1000000000000000, [2, 1, 1, 0]⟩],
  [⟨-8385254915624226, 10000000000000000, [1, 0, 1, 0]⟩, ⟨2515576474687268, 1000000000000000, [1, 2, 1, 0]⟩],
  [⟨-8385254915624226, 10000000000000000, [1, 1, 0, 0]⟩, ⟨2515576474687268, 1000000000000000, [1, 1, 2, 0]⟩],
  [⟨-8385254915624226, 10000000000000000, [0, 1, 0, 1]⟩, ⟨2515576474687268, 1000000000000000, [2, 1, 0, 1]⟩],
  [⟨-8385254915624226, 10000000000000000, [1, 0, 0, 1]⟩, ⟨2515576474687268, 1000000000000000, [1, 2, 0, 1]⟩],
  [⟨-8385254915624226, 10000000000000000, [0, 0, 1, 1]⟩, ⟨2515576474687268, 1000000000000000, [2, 0, 1, 1]⟩],
  [⟨-8385254915624226, 10000000000000000, [0, 0, 1, 1]⟩, ⟨2515576474687268, 1000000000000000, [0, 2, 1, 1]⟩],
  [⟨-8385254915624226, 10000000000000000, [1, 0, 0, 1]⟩, ⟨2515576474687268, 1000000000000000, [1, 0, 2, 1]⟩],
  [⟨-8385254915624226, 10000000000000000, [0, 1, 0, 1]⟩, ⟨2515576474687268, 1000000000000000, [0, 1, 2, 1]⟩],
  [⟨-8385254915624226, 10000000000000000, [1, 1, 0, 0]⟩, ⟨2515576474687268, 1000000000000000, [1, 1, 0, 2]⟩],
  [⟨-8385254915624226, 10000000000000000, [1, 0, 1, 0]⟩, ⟨2515576474687268, 1000000000000000, [1, 0, 1, 2]⟩],
  [⟨-8385254915624226, 10000000000000000, [0, 1, 1, 0]⟩, ⟨2515576474687268, 1000000000000000, [0, 1, 1, 2]⟩],
  [⟨3125, 10000, [0, 0, 0, 0]⟩, ⟨-9375, 10000, [0, 2, 0, 0]⟩, ⟨-9375, 10000, [2, 0, 0, 0]⟩, ⟨28125, 10000, [2, 2, 0, 0]⟩],
  [⟨3125, 10000, [0, 0, 0, 0]⟩, ⟨-9375, 10000, [0, 0, 2, 0]⟩, ⟨-9375, 10000, [2, 0, 0, 0]⟩, ⟨28125, 10000, [2, 0, 2, 0]⟩],
  [⟨3125, 10000, [0, 0, 0, 0]⟩, ⟨-9375, 10000, [0, 0, 2, 0]⟩, ⟨-9375, 10000, [0, 2, 0, 0]⟩, ⟨28125, 10000, [0, 2, 2, 0]⟩],
  [⟨3125, 10000, [0, 0, 0, 0]⟩, ⟨-9375, 10000, [0, 0, 0, 2]⟩, ⟨-9375, 10000, [2, 0, 0, 0]⟩, ⟨28125, 10000, [2, 0, 0, 2]⟩],
  [⟨3125, 10000, [0, 0, 0, 0]⟩, ⟨-9375, 10000, [0, 0, 0, 2]⟩, ⟨-9375, 10000, [0, 2, 0, 0]⟩, ⟨28125, 10000, [0, 2, 0, 2]⟩],
  [⟨3125, 10000, [0, 0, 0, 0]⟩, ⟨-9375, 10000, [0, 0, 0, 2]⟩, ⟨-9375, 10000, [0, 0, 2, 0]⟩, ⟨28125, 10000, [0, 0, 2, 2]⟩],
  [⟨-1718465885608439, 1000000000000000, [1, 1, 0, 0]⟩, ⟨2864109809347398, 1000000000000000, [3, 1, 0, 0]⟩],
  [⟨-1718465885608439, 1000000000000000, [1, 1, 0, 0]⟩, ⟨2864109809347398, 1000000000000000, [1, 3, 0, 0]⟩],
  [⟨-1718465885608439, 1000000000000000, [1, 0, 1, 0]⟩, ⟨2864109809347398, 1000000000000000, [3, 0, 1, 0]⟩],
  [⟨-1718465885608439, 1000000000000000, [0, 1, 1, 0]⟩, ⟨2864109809347398, 1000000000000000, [0, 3, 1, 0]⟩],
  [⟨-1718465885608439, 1000000000000000, [1, 0, 1, 0]⟩, ⟨2864109809347398, 1000000000000000, [1, 0, 3, 0]⟩],
  [⟨-1718465885608439, 1000000000000000, [0, 1, 1, 0]⟩, ⟨2864109809347398, 1000000000000000, [0, 1, 3, 0]⟩],
  [⟨-1718465885608439, 1000000000000000, [1, 0, 0, 1]⟩, ⟨2864109809347398, 1000000000000000, [3, 0, 0, 1]⟩],
  [⟨-1718465885608439, 1000000000000000, [0, 1, 0, 1]⟩, ⟨2864109809347398, 1000000000000000, [0, 3, 0, 1]⟩],
  [⟨-1718465885608439, 1000000000000000, [0, 0, 1, 1]⟩, ⟨2864109809347398, 1000000000000000, [0, 0, 3, 1]⟩],
  [⟨-1718465885608439, 1000000000000000, [1, 0, 0, 1]⟩, ⟨2864109809347398, 1000000000000000, [1, 0, 0, 3]⟩],
  [⟨-1718465885608439, 1000000000000000, [0, 1, 0, 1]⟩, ⟨2864109809347398, 1000000000000000, [0, 1, 0, 3]⟩],
  [⟨-1718465885608439, 1000000000000000, [0, 0, 1, 1]⟩, ⟨2864109809347398, 1000000000000000, [0, 0, 1, 3]⟩],
  [⟨28125, 100000, [0, 0, 0, 0]⟩, ⟨-28125, 10000, [2, 0, 0, 0]⟩, ⟨328125, 100000, [4, 0, 0, 0]⟩],
  [⟨28125, 100000, [0, 0, 0, 0]⟩, ⟨-28125, 10000, [0, 2, 0, 0]⟩, ⟨328125, 100000, [0, 4, 0, 0]⟩],
  [⟨28125, 100000, [0, 0, 0, 0]⟩, ⟨-28125, 10000, [0, 0, 2, 0]⟩, ⟨328125, 100000, [0, 0, 4, 0]⟩],
  [⟨28125, 100000, [0, 0, 0, 0]⟩, ⟨-28125, 10000, [0, 0, 0, 2]⟩, ⟨328125, 100000, [0, 0, 0, 4]⟩]]

/-- computeInterpolationMatrices.py:2426-2426. -/
def modalSer4p0 : List Poly := [
  [⟨25, 100, [0, 0, 0, 0]⟩]]

/-- computeInterpolationMatrices.py:2459-2478. -/
def modalSer4p1 : List Poly := [
  [⟨25, 100, [0, 0, 0, 0]⟩],
  [⟨4330127018922192, 10000000000000000, [1, 0, 0, 0]⟩],
  [⟨4330127018922192, 10000000000000000, [0, 1, 0, 0]⟩],
  [⟨4330127018922192, 10000000000000000, [0, 0, 1, 0]⟩],
  [⟨4330127018922192, 10000000000000000, [0, 0, 0, 1]⟩],
  [⟨75, 100, [1, 1, 0, 0]⟩],
  [⟨75, 100, [1, 0, 1, 0]⟩],
  [⟨75, 100, [0, 1, 1, 0]⟩],
  [⟨75, 100, [1, 0, 0, 1]⟩],
  [⟨75, 100, [0, 1, 0, 1]⟩],
  [⟨75, 100, [0, 0, 1, 1]⟩],
  [⟨1299038105676659, 1000000000000000, [1, 1, 1, 0]⟩],
  [⟨1299038105676659, 1000000000000000, [1, 1, 0, 1]⟩],
  [⟨1299038105676659, 1000000000000000, [1, 0, 1, 1]⟩],
  [⟨1299038105676659, 1000000000000000, [0, 1, 1, 1]⟩],
  [⟨225, 100, [1, 1, 1, 1]⟩]]

/-- computeInterpolationMatrices.py:2511-2562. -/
def modalSer4p2 : List Poly := [
  [⟨25, 100, [0, 0, 0, 0]⟩],
  [⟨4330127018922192, 10000000000000000, [1, 0, 0, 0]⟩],
  [⟨4330127018922192, 10000000000000000, [0, 1, 0, 0]⟩],
  [⟨4330127018922192, 10000000000000000, [0, 0, 1, 0]⟩],
  [⟨4330127018922192, 10000000000000000, [0, 0, 0, 1]⟩],
  [⟨75, 100, [1, 1, 0, 0]⟩],
  [⟨75, 100, [1, 0, 1, 0]⟩],
  [⟨75, 100, [0, 1, 1, 0]⟩],
  [⟨75, 100, [1, 0, 0, 1]⟩],
  [⟨75, 100, [0, 1, 0, 1]⟩],
  [⟨75, 100, [0, 0, 1, 1]⟩],
  [⟨-2795084971874732, 10000000000000000, [0, 0, 0, 0]⟩, ⟨8385254915624196, 10000000000000000, [2, 0, 0, 0]⟩],
  [⟨-2795084971874732, 10000000000000000, [0, 0, 0, 0]⟩, ⟨8385254915624196, 10000000000000000, [0, 2, 0, 0]⟩],
  [⟨-2795084971874732, 10000000000000000, [0, 0, 0, 0]⟩, ⟨8385254915624196, 10000000000000000, [0, 0, 2, 0]⟩],
  [⟨-2795084971874732, 10000000000000000, [0, 0, 0, 0]⟩, ⟨8385254915624196, 10000000000000000, [0, 0, 0, 2]⟩],
  [⟨1299038105676659, 1000000000000000, [1, 1, 1, 0]⟩],
  [⟨1299038105676659, 1000000000000000, [1, 1, 0, 1]⟩],
  [⟨1299038105676659, 1000000000000000, [1, 0, 1, 1]⟩],
  [⟨1299038105676659, 1000000000000000, [0, 1, 1, 1]⟩],
  [⟨-4841229182759272, 10000000000000000, [0, 1, 0, 0]⟩, ⟨1452368754827781, 1000000000000000, [2, 1, 0, 0]⟩],
  [⟨-4841229182759272, 10000000000000000, [1, 0, 0, 0]⟩, ⟨1452368754827781, 1000000000000000, [1, 2, 0, 0]⟩],
  [⟨-4841229182759272, 10000000000000000, [0, 0, 1, 0]⟩, ⟨1452368754827781, 1000000000000000, [2, 0, 1, 0]⟩],
  [⟨-4841229182759272, 10000000000000000, [0, 0, 1, 0]⟩, ⟨1452368754827781, 1000000000000000, [0, 2, 1, 0]⟩],
  [⟨-4841229182759272, 10000000000000000, [1, 0, 0, 0]⟩, ⟨1452368754827781, 1000000000000000, [1, 0, 2, 0]⟩],
  [⟨-4841229182759272, 10000000000000000, [0, 1, 0, 0]⟩, ⟨1452368754827781, 1000000000000000, [0, 1, 2, 0]⟩],
  [⟨-4841229182759272, 10000000000000000, [0, 0, 0, 1]⟩, ⟨1452368754827781, 1000000000000000, [2, 0, 0, 1]⟩],
  [⟨-4841229182759272, 10000000000000000, [0, 0, 0, 1]⟩, ⟨1452368754827781, 1000000000000000, [0, 2, 0, 1]⟩],
  [⟨-4841229182759272, 10000000000000000, [0, 0, 0, 1]⟩, ⟨1452368754827781, 1000000000000000, [0, 0, 2, 1]⟩],
  [⟨-4841229182759272, 10000000000000000, [1, 0, 0, 0]⟩, ⟨1452368754827781, 1000000000000000, [1, 0, 0, 2]⟩],
  [⟨-4841229182759272, 10000000000000000, [0, 1, 0, 0]⟩, ⟨1452368754827781, 1000000000000000, [0, 1, 0, 2]⟩],
  [⟨-4841229182759272, 10000000000000000, [0, 0, 1, 0]⟩, ⟨1452368754827781, 1000000000000000, [0, 0, 1, 2]⟩],
  [⟨225, 100, [1, 1, 1, 1]⟩],
  [⟨-8385254915624226, 10000000000000000, [0, 1, 1, 0]⟩, ⟨2515576474687268, 1000000000000000, [2, 1, 1, 0]⟩],
  [⟨-8385254915624226, 10000000000000000, [1, 0, 1, 0]⟩, ⟨2515576474687268, 1000000000000000, [1, 2, 1, 0]⟩],
  [⟨-8385254915624226, 10000000000000000, [1, 1, 0, 0]⟩, ⟨2515576474687268, 1000000000000000, [1, 1, 2, 0]⟩],
  [⟨-8385254915624226, 10000000000000000, [0, 1, 0, 1]⟩, ⟨2515576474687268, 1000000000000000, [2, 1, 0, 1]⟩],
  [⟨-8385254915624226, 10000000000000000, [1, 0, 0, 1]⟩, ⟨2515576474687268, 1000000000000000, [1, 2, 0, 1]⟩],
  [⟨-8385254915624226, 10000000000000000, [0, 0, 1, 1]⟩, ⟨2515576474687268, 1000000000000000, [2, 0, 1, 1]⟩],
  [⟨-8385254915624226, 10000000000000000, [0, 0, 1, 1]⟩, ⟨2515576474687268, 1000000000000000, [0, 2, 1, 1]⟩],
  [⟨-8385254915624226, 10000000000000000, [1, 0, 0, 1]⟩, ⟨2515576474687268, 1000000000000000, [1, 0, 2, 1]⟩],
  [⟨-8385254915624226, 10000000000000000, [0, 1, 0, 1]⟩, ⟨2515576474687268, 1000000000000000, [0, 1, 2, 1]⟩],
  [⟨-8385254915624226, 10000000000000000, [1, 1, 0, 0]⟩, ⟨2515576474687268, 1000000000000000, [1, 1, 0, 2]⟩],
  [⟨-8385254915624226, 10000000000000000, [1, 0, 1, 0]⟩, ⟨2515576474687268, 1000000000000000, [1, 0, 1, 2]⟩],
  [⟨-8385254915624226, 10000000000000000, [0, 1, 1, 0]⟩, ⟨2515576474687268, 1000000000000000, [0, 1, 1, 2]⟩],
  [⟨-1452368754827781, 1000000000000000, [0, 1, 1, 1]⟩, ⟨4357106264483344, 1000000000000000, [2, 1, 1, 1]⟩],
  [⟨-1452368754827781, 1000000000000000, [1, 0, 1, 1]⟩, ⟨4357106264483344, 1000000000000000, [1, 2, 1, 1]⟩],
  [⟨-1452368754827781, 1000000000000000, [1, 1, 0, 1]⟩, ⟨4357106264483344, 1000000000000000, [1, 1, 2, 1]⟩],
  [⟨-1452368754827781, 1000000000000000, [1, 1, 1, 0]⟩, ⟨4357106264483344, 1000000000000000, [1, 1, 1, 2]⟩]]

/-- computeInterpolationMatrices.py:2595-2678. -/
def modalSer4p3 : List Poly := [
  [⟨25, 100, [0, 0, 0, 0]⟩],
  [⟨4330127018922192, 10000000000000000, [1, 0, 0, 0]⟩],
  [⟨4330127018922192, 10000000000000000, [0, 1, 0, 0]⟩],
  [⟨4330127018922192, 10000000000000000, [0, 0, 1, 0]⟩],
  [⟨4330127018922192, 10000000000000000, [0, 0, 0, 1]⟩],
  [⟨75, 100, [1, 1, 0, 0]⟩],
  [⟨75, 100, [1, 0, 1, 0]⟩],
  [⟨75, 100, [0, 1, 1, 0]⟩],
  [⟨75, 100, [1, 0, 0, 1]⟩],
  [⟨75, 100, [0, 1, 0, 1]⟩],
  [⟨75, 100, [0, 0, 1, 1]⟩],
  [⟨-2795084971874732, 10000000000000000, [0, 0, 0, 0]⟩, ⟨8385254915624196, 10000000000000000, [2, 0, 0, 0]⟩],
  [⟨-2795084971874732, 10000000000000000, [0, 0, 0, 0]⟩, ⟨8385254915624196, 10000000000000000, [0, 2, 0, 0]⟩],
  [⟨-2795084971874732, 10000000000000000, [0, 0, 0, 0]⟩, ⟨8385254915624196, 10000000000000000, [0, 0, 2, 0]⟩],
  [⟨-2795084971874732, 10000000000000000, [0, 0, 0, 0]⟩, ⟨8385254915624196, 10000000000000000, [0, 0, 0, 2]⟩],
  [⟨1299038105676659, 1000000000000000, [1, 1, 1, 0]⟩],
  [⟨1299038105676659, 1000000000000000, [1, 1, 0, 1]⟩],
  [⟨1299038105676659, 1000000000000000, [1, 0, 1, 1]⟩],
  [⟨1299038105676659, 1000000000000000, [0, 1, 1, 1]⟩],
  [⟨-4841229182759272, 10000000000000000, [0, 1, 0, 0]⟩, ⟨1452368754827781, 1000000000000000, [2, 1, 0, 0]⟩],
  [⟨-4841229182759272, 10000000000000000, [1, 0, 0, 0]⟩, ⟨1452368754827781, 1000000000000000, [1, 2, 0, 0]⟩],
  [⟨-4841229182759272, 10000000000000000, [0, 0, 1, 0]⟩, ⟨1452368754827781, 1000000000000000, [2, 0, 1, 0]⟩],
  [⟨-4841229182759272, 10000000000000000, [0, 0, 1, 0]⟩, ⟨1452368754827781, 1000000000000000, [0, 2, 1, 0]⟩],
  [⟨-4841229182759272, 10000000000000000, [1, 0, 0, 0]⟩, ⟨1452368754827781, 1000000000000000, [1, 0, 2, 0]⟩],
  [⟨-4841229182759272, 10000000000000000, [0, 1, 0, 0]⟩, ⟨1452368754827781, 1000000000000000, [0, 1, 2, 0]⟩],
  [⟨-4841229182759272, 10000000000000000, [0, 0, 0, 1]⟩, ⟨1452368754827781, 1000000000000000, [2, 0, 0, 1]⟩],
  [⟨-4841229182759272, 10000000000000000, [0, 0, 0, 1]⟩, ⟨1452368754827781, 1000000000000000, [0, 2, 0, 1]⟩],
  [⟨-4841229182759272, 10000000000000000, [0, 0, 0, 1]⟩, ⟨1452368754827781, 1000000000000000, [0, 0, 2, 1]⟩],
  [⟨-4841229182759272, 10000000000000000, [1, 0, 0, 0]⟩, ⟨1452368754827781, 1000000000000000, [1, 0, 0, 2]⟩],
  [⟨-4841229182759272, 10000000000000000, [0, 1, 0, 0]⟩, ⟨1452368754827781, 1000000000000000, [0, 1, 0, 2]⟩],
  [⟨-4841229182759272, 10000000000000000, [0, 0, 1, 0]⟩, ⟨1452368754827781, 1000000000000000, [0, 0, 1, 2]⟩],
  [⟨-9921567416492196, 10000000000000000, [1, 0, 0, 0]⟩, ⟨1653594569415366, 1000000000000000, [3, 0, 0, 0]⟩],
  [⟨-9921567416492196, 10000000000000000, [0, 1, 0, 0]⟩, ⟨1653594569415366, 1000000000000000, [0, 3, 0, 0]⟩],
  [⟨-9921567416492196, 10000000000000000, [0, 0, 1, 0]⟩, ⟨1653594569415366, 1000000000000000, [0, 0, 3, 0]⟩],
  [⟨-9921567416492196, 10000000000000000, [0, 0, 0, 1]⟩, ⟨1653594569415366, 1000000000000000, [0, 0, 0, 3]⟩],
  [⟨225, 100, [1, 1, 1, 1]⟩],
  [⟨-8385254915624226, 10000000000000000, [0, 1, 1, 0]⟩, ⟨2515576474687268, 1000000000000000, [2, 1, 1, 0]⟩],
  [⟨-8385254915624226, 10000000000000000, [1, 0, 1, 0]⟩, ⟨2515576474687268, 1000000000000000, [1, 2, 1, 0]⟩],
  [⟨-8385254915624226, 10000000000000000, [1, 1, 0, 0]⟩, ⟨2515576474687268, 1000000000000000, [1, 1, 2, 0]⟩],
  [⟨-8385254915624226, 10000000000000000, [0, 1, 0, 1]⟩, ⟨2515576474687268, 1000000000000000, [2, 1, 0, 1]⟩],
  [⟨-8385254915624226, 10000000000000000, [1, 0, 0, 1]⟩, ⟨2515576474687268, 1000000000000000, [1, 2, 0, 1]⟩],
  [⟨-8385254915624226, 10000000000000000, [0, 0, 1, 1]⟩, ⟨2515576474687268, 1000000000000000, [2, 0, 1, 1]⟩],
  [⟨-8385254915624226, 10000000000000000, [0, 0, 1, 1]⟩, ⟨2515576474687268, 1000000000000000, [0, 2, 1, 1]⟩],
  [⟨-8385254915624226, 10000000000000000, [1, 0, 0, 1]⟩, ⟨2515576474687268, 1000000000000000, [1, 0, 2, 1]⟩],
  [⟨-8385254915624226, 10000000000000000, [0, 1, 0, 1]⟩, ⟨2515576474687268, 1000000000000000, [0, 1, 2, 1]⟩],
  [⟨-8385254915624226, 10000000000000000, [1, 1, 0, 0]⟩, ⟨2515576474687268, 1000000000000000, [1, 1, 0, 2]⟩],
  [⟨-8385254915624226, 10000000000000000, [1, 0, 1, 0]⟩, ⟨2515576474687268, 1000000000000000, [1, 0, 1, 2]⟩],
  [⟨-8385254915624226, 10000000000000000, [0, 1, 1, 0]⟩, ⟨2515576474687268, 1000000000000000, [0, 1, 1, 2]⟩],
  [⟨-1718465885608439, 1000000000000000, [1, 1, 0, 0]⟩, ⟨2864109809347398, 1000000000000000, [3, 1, 0, 0]⟩],
  [⟨-1718465885608439, 1000000000000000, [1, 1, 0, 0]⟩, ⟨2864109809347398, 1000000000000000, [1, 3, 0, 0]⟩],
  [⟨-1718465885608439, 1000000000000000, [1, 0, 1, 0]⟩, ⟨2864109809347398, 1000000000000000, [3, 0, 1, 0]⟩],
  [⟨-1718465885608439, 1000000000000000, [0, 1, 1, 0]⟩, ⟨2864109809347398, 1000000000000000, [0, 3, 1, 0]⟩],
  [⟨-1718465885608439, 1000000000000000, [1, 0, 1, 0]⟩, ⟨2864109809347398, 1000000000000000, [1, 0, 3, 0]⟩],
  [⟨-1718465885608439, 1000000000000000, [0, 1, 1, 0]⟩, ⟨2864109809347398, 1000000000000000, [0, 1, 3, 0]⟩],
  [⟨-1718465885608439, 1000000000000000, [1, 0, 0, 1]⟩, ⟨2864109809347398, 1000000000000000, [3, 0, 0, 1]⟩],
  [⟨-1718465885608439, 1000000000000000, [0, 1, 0, 1]⟩, ⟨2864109809347398, 1000000000000000, [0, 3, 0, 1]⟩],
  [⟨-1718465885608439, 1000000000000000, [0, 0, 1, 1]⟩, ⟨2864109809347398, 1000000000000000, [0, 0, 3, 1]⟩],
  [⟨-1718465885608439, 1000000000000000, [1, 0, 0, 1]⟩, ⟨2864109809347398, 1000000000000000, [1, 0, 0, 3]⟩],
  [⟨-1718465885608439, 1000000000000000, [0, 1, 0, 1]⟩, ⟨2864109809347398, 1000000000000000, [0, 1, 0, 3]⟩],
  [⟨-1718465885608439, 1000000000000000, [0, 0, 1, 1]⟩, ⟨2864109809347398, 1000000000000000, [0, 0, 1, 3]⟩],
  [⟨-1452368754827781, 1000000000000000, [0, 1, 1, 1]⟩, ⟨4357106264483344, 1000000000000000, [2, 1, 1, 1]⟩],
  [⟨-1452368754827781, 1000000000000000, [1, 0, 1, 1]⟩, ⟨4357106264483344, 1000000000000000, [1, 2, 1, 1]⟩],
  [⟨-1452368754827781, 1000000000000000, [1, 1, 0, 1]⟩, ⟨4357106264483344, 1000000000000000, [1, 1, 2, 1]⟩],
  [⟨-1452368754827781, 1000000000000000, [1, 1, 1, 0]⟩, ⟨4357106264483344, 1000000000000000, [1, 1, 1, 2]⟩],
  [⟨-2976470224947662, 1000000000000000, [1, 1, 1, 0]⟩, ⟨4960783708246104, 1000000000000000, [3, 1, 1, 0]⟩],
  [⟨-2976470224947662, 1000000000000000, [1, 1, 1, 0]⟩, ⟨4960783708246104, 1000000000000000, [1, 3, 1, 0]⟩],
  [⟨-2976470224947662, 1000000000000000, [1, 1, 1, 0]⟩, ⟨4960783708246104, 1000000000000000, [1, 1, 3, 0]⟩],
  [⟨-2976470224947662, 1000000000000000, [1, 1, 0, 1]⟩, ⟨4960783708246104, 1000000000000000, [3, 1, 0, 1]⟩],
  [⟨-2976470224947662, 1000000000000000, [1, 1, 0, 1]⟩, ⟨4960783708246104, 1000000000000000, [1, 3, 0, 1]⟩],
  [⟨-2976470224947662, 1000000000000000, [1, 0, 1, 1]⟩, ⟨4960783708246104, 1000000000000000, [3, 0, 1, 1]⟩],
  [⟨-2976470224947662, 1000000000000000, [0, 1, 1, 1]⟩, ⟨4960783708246104, 1000000000000000, [0, 3, 1, 1]⟩],
  [⟨-2976470224947662, 1000000000000000, [1, 0, 1, 1]⟩, ⟨4960783708246104, 1000000000000000, [1, 0, 3, 1]⟩],
  [⟨-2976470224947662, 1000000000000000, [0, 1, 1, 1]⟩, ⟨4960783708246104, 1000000000000000, [0, 1, 3, 1]⟩],
  [⟨-2976470224947662, 1000000000000000, [1, 1, 0, 1]⟩, ⟨4960783708246104, 1000000000000000, [1, 1, 0, 3]⟩],
  [⟨-2976470224947662, 1000000000000000, [1, 0, 1, 1]⟩, ⟨4960783708246104, 1000000000000000, [1, 0, 1, 3]⟩],
  [⟨-2976470224947662, 1000000000000000, [0, 1, 1, 1]⟩, ⟨4960783708246104, 1000000000000000, [0, 1, 1, 3]⟩],
  [⟨-515539765682532, 100000000000000, [1, 1, 1, 1]⟩, ⟨85923294280422, 10000000000000, [3, 1, 1, 1]⟩],
  [⟨-515539765682532, 100000000000000, [1, 1, 1, 1]⟩, ⟨85923294280422, 10000000000000, [1, 3, 1, 1]⟩],
  [⟨-515539765682532, 100000000000000, [1, 1, 1, 1]⟩, ⟨85923294280422, 10000000000000, [1, 1, 3, 1]⟩],
  [⟨-515539765682532, 100000000000000, [1, 1, 1, 1]⟩, ⟨85923294280422, 10000000000000, [1, 1, 1, 3]⟩]]

/-- computeInterpolationMatrices.py:2711-3004. -/
def modalSer4p4 : List Poly := [
  [⟨25, 100, [0, 0, 0, 0]⟩],
  [⟨4330127018922192, 10000000000000000, [1, 0, 0, 0]⟩],
  [⟨4330127018922192, 10000000000000000, [0, 1, 0, 0]⟩],
  [⟨4330127018922192, 10000000000000000, [0, 0, 1, 0]⟩],
  [⟨4330127018922192, 10000000000000000, [0, 0, 0, 1]⟩],
  [⟨75, 100, [1, 1, 0, 0]⟩],
  [⟨75, 100, [1, 0, 1, 0]⟩],
  [⟨75, 100, [0, 1, 1, 0]⟩],
  [⟨75, 100, [1, 0, 0, 1]⟩],
  [⟨75, 100, [0, 1, 0, 1]⟩],
  [⟨75, 100, [0, 0, 1, 1]⟩],
  [⟨-2795084971874732, 10000000000000000, [0, 0, 0, 0]⟩, ⟨8385254915624196, 10000000000000000, [2, 0, 0, 0]⟩],
  [⟨-2795084971874732, 10000000000000000, [0, 0, 0, 0]⟩, ⟨8385254915624196, 10000000000000000, [0, 2, 0, 0]⟩],
  [⟨-2795084971874732, 10000000000000000, [0, 0, 0, 0]⟩, ⟨8385254915624196, 10000000000000000, [0, 0, 2, 0]⟩],
  [⟨-2795084971874732, 10000000000000000, [0, 0, 0, 0]⟩, ⟨8385254915624196, 10000000000000000, [0, 0, 0, 2]⟩],
  [⟨1299038105676659, 1000000000000000, [1, 1, 1, 0]⟩],
  [⟨1299038105676659, 1000000000000000, [1, 1, 0, 1]⟩],
  [⟨1299038105676659, 1000000000000000, [1, 0, 1, 1]⟩],
  [⟨1299038105676659, 1000000000000000, [0, 1, 1, 1]⟩],
  [⟨-4841229182759272, 10000000000000000, [0, 1, 0, 0]⟩, ⟨1452368754827781, 1000000000000000, [2, 1, 0, 0]⟩],
  [⟨-4841229182759272, 10000000000000000, [1, 0, 0, 0]⟩, ⟨1452368754827781, 1000000000000000, [1, 2, 0, 0]⟩],
  [⟨-4841229182759272, 10000000000000000, [0, 0, 1, 0]⟩, ⟨1452368754827781, 1000000000000000, [2, 0, 1, 0]⟩],
  [⟨-4841229182759272, 10000000000000000, [0, 0, 1, 0]⟩, ⟨1452368754827781, 1000000000000000, [0, 2, 1, 0]⟩],
  [⟨-4841229182759272, 10000000000000000, [1, 0, 0, 0]⟩, ⟨1452368754827781, 1000000000000000, [1, 0, 2, 0]⟩],
  [⟨-4841229182759272, 10000000000000000, [0, 1, 0, 0]⟩, ⟨1452368754827781, 1000000000000000, [0, 1, 2, 0]⟩],
  [⟨-4841229182759272, 10000000000000000, [0, 0, 0, 1]⟩, ⟨1452368754827781, 1000000000000000, [2, 0, 0, 1]⟩],
  [⟨-4841229182759272, 10000000000000000, [0, 0, 0, 1]⟩, ⟨1452368754827781, 1000000000000000, [0, 2, 0, 1]⟩],
  [⟨-4841229182759272, 10000000000000000, [0, 0, 0, 1]⟩, ⟨1452368754827781, 1000000000000000, [0, 0, 2, 1]⟩],
  [⟨-4841229182759272, 10000000000000000, [1, 0, 0, 0]⟩, ⟨1452368754827781, 1000000000000000, [1, 0, 0, 2]⟩],
  [⟨-4841229182759272, 10000000000000000, [0, 1, 0, 0]⟩, ⟨1452368754827781, 1000000000000000, [0, 1, 0, 2]⟩],
  [⟨-4841229182759272, 10000000000000000, [0, 0, 1, 0]⟩, ⟨1452368754827781, 1000000000000000, [0, 0, 1, 2]⟩],
  [⟨-9921567416492196, 10000000000000000, [1, 0, 0, 0]⟩, ⟨1653594569415366, 1000000000000000, [3, 0, 0, 0]⟩],
  [⟨-9921567416492196, 10000000000000000, [0, 1, 0, 0]⟩, ⟨1653594569415366, 1000000000000000, [0, 3, 0, 0]⟩],
  [⟨-9921567416492196, 10000000000000000, [0, 0, 1, 0]⟩, ⟨1653594569415366, 1000000000000000, [0, 0, 3, 0]⟩],
  [⟨-9921567416492196, 10000000000000000, [0, 0, 0, 1]⟩, ⟨1653594569415366, 1000000000000000, [0, 0, 0, 3]⟩],
  [⟨225, 100, [1, 1, 1, 1]⟩],
  [⟨-8385254915624226, 10000000000000000, [0, 1, 1, 0]⟩, ⟨2515576474687268, 1000000000000000, [2, 1, 1, 0]⟩],
  [⟨-8385254915624226, 10000000000000000, [1, 0, 1, 0]⟩, ⟨2515576474687268, 1000000000000000, [1, 2, 1, 0]⟩],
  [⟨-8385254915624226, 10000000000000000, [1, 1, 0, 0]⟩, ⟨2515576474687268, 1000000000000000, [1, 1, 2, 0]⟩],
  [⟨-8385254915624226, 10000000000000000, [0, 1, 0, 1]⟩, ⟨2515576474687268, 1000000000000000, [2, 1, 0, 1]⟩],
  [⟨-8385254915624226, 10000000000000000, [1, 0, 0, 1]⟩, ⟨2515576474687268, 1000000000000000, [1, 2, 0, 1]⟩],
  [⟨-8385254915624226, 10000000000000000, [0, 0, 1, 1]⟩, ⟨2515576474687268, 1000000000000000, [2, 0, 1, 1]⟩],
  [⟨-8385254915624226, 10000000000000000, [0, 0, 1, 1]⟩, ⟨2515576474687268, 1000000000000000, [0, 2, 1, 1]⟩],
  [⟨-8385254915624226, 10000000000000000, [1, 0, 0, 1]⟩, ⟨2515576474687268, 1000000000000000, [1, 0, 2, 1]⟩],
  [⟨-8385254915624226, 10000000000000000, [0, 1, 0, 1]⟩, ⟨2515576474687268, 1000000000000000, [0, 1, 2, 1]⟩],
  [⟨-8385254915624226, 10000000000000000, [1, 1, 0, 0]⟩, ⟨2515576474687268, 1000000000000000, [1, 1, 0, 2]⟩],
  [⟨-8385254915624226, 10000000000000000, [1, 0, 1, 0]⟩, ⟨2515576474687268, 1000000000000000, [1, 0, 1, 2]⟩],
  [⟨-8385254915624226, 10000000000000000, [0, 1, 1, 0]⟩, ⟨2515576474687268, 1000000000000000, [0, 1, 1, 2]⟩],
  [⟨3125, 10000, [0, 0, 0, 0]⟩, ⟨-9375, 10000, [0, 2, 0, 0]⟩, ⟨-9375, 10000, [2, 0, 0, 0]⟩, ⟨28125, 10000, [2, 2, 0, 0]⟩],
  [⟨3125, 10000, [0, 0, 0, 0]⟩, ⟨-9375, 10000, [0, 0, 2, 0]⟩, ⟨-9375, 10000, [2, 0, 0, 0]⟩, ⟨28125, 10000, [2, 0, 2, 0]⟩],
  [⟨3125, 10000, [0, 0, 0, 0]⟩, ⟨-9375, 10000, [0, 0, 2, 0]⟩, ⟨-9375, 10000, [0, 2, 0, 0]⟩, ⟨28125, 10000, [0, 2, 2, 0]⟩],
  [⟨3125, 10000, [0, 0, 0, 0]⟩, ⟨-9375, 10000, [0, 0, 0, 2]⟩, ⟨-9375, 10000, [2, 0, 0, 0]⟩, ⟨28125, 10000, [2, 0, 0, 2]⟩],
  [⟨3125, 10000, [0, 0, 0, 0]⟩, ⟨-9375, 10000, [0, 0, 0, 2]⟩, ⟨-9375, 10000, [0, 2, 0, 0]⟩, ⟨28125, 10000, [0, 2, 0, 2]⟩],
  [⟨3125, 10000, [0, 0, 0, 0]⟩, ⟨-9375, 10000, [0, 0, 0, 2]⟩, ⟨-9375, 10000, [0, 0, 2, 0]⟩, ⟨28125, 10000, [0, 0, 2, 2]⟩],
  [⟨-1718465885608439, 1000000000000000, [1, 1, 0, 0]⟩, ⟨2864109809347398, 1000000000000000, [3, 1, 0, 0]⟩],
  [⟨-1718465885608439, 1000000000000000, [1, 1, 0, 0]⟩, ⟨2864109809347398, 1000000000000000, [1, 3, 0, 0]⟩],
  [⟨-1718465885608439, 1000000000000000, [1, 0, 1, 0]⟩, ⟨2864109809347398, 1000000000000000, [3, 0, 1, 0]⟩],
  [⟨-1718465885608439, 1000000000000000, [0, 1, 1, 0]⟩, ⟨2864109809347398, 1000000000000000, [0, 3, 1, 0]⟩],
  [⟨-1718465885608439, 1000000000000000, [1, 0, 1, 0]⟩, ⟨2864109809347398, 1000000000000000, [1, 0, 3, 0]⟩],
  [⟨-1718465885608439, 1000000000000000, [0, 1, 1, 0]⟩, ⟨2864109809347398, 1000000000000000, [0, 1, 3, 0]⟩],
  [⟨-1718465885608439, 1000000000000000, [1, 0, 0, 1]⟩, ⟨2864109809347398, 1000000000000000, [3, 0, 0, 1]⟩],
  [⟨-1718465885608439, 1000000000000000, [0, 1, 0, 1]⟩, ⟨2864109809347398, 1000000000000000, [0, 3, 0, 1]⟩],
  [⟨-1718465885608439, 1000000000000000, [0, 0, 1, 1]⟩, ⟨2864109809347398, 1000000000000000, [0, 0, 3, 1]⟩],
  [⟨-1718465885608439, 1000000000000000, [1, 0, 0, 1]⟩, ⟨2864109809347398, 1000000000000000, [1, 0, 0, 3]⟩],
  [⟨-1718465885608439, 1000000000000000, [0, 1, 0, 1]⟩, ⟨2864109809347398, 1000000000000000, [0, 1, 0, 3]⟩],
  [⟨-1718465885608439, 1000000000000000, [0, 0, 1, 1]⟩, ⟨2864109809347398, 1000000000000000, [0, 0, 1, 3]⟩],
  [⟨28125, 100000, [0, 0, 0, 0]⟩, ⟨-28125, 10000, [2, 0, 0, 0]⟩, ⟨328125, 100000, [4, 0, 0, 0]⟩],
  [⟨28125, 100000, [0, 0, 0, 0]⟩, ⟨-28125, 10000, [0, 2, 0, 0]⟩, ⟨328125, 100000, [0, 4, 0, 0]⟩],
  [⟨28125, 100000, [0, 0, 0, 0]⟩, ⟨-28125, 10000, [0, 0, 2, 0]⟩, ⟨328125, 100000, [0, 0, 4, 0]⟩],
  [⟨28125, 100000, [0, 0, 0, 0]⟩, ⟨-28125, 10000, [0, 0, 0, 2]⟩, ⟨328125, 100000, [0, 0, 0, 4]⟩],
  [⟨-1452368754827781, 1000000000000000, [0, 1, 1, 1]⟩, ⟨4357106264483344, 1000000000000000, [2, 1, 1, 1]⟩],
  [⟨-1452368754827781, 1000000000000000, [1, 0, 1, 1]⟩, ⟨4357106264483344, 1000000000000000, [1, 2, 1, 1]⟩],
  [⟨-1452368754827781, 1000000000000000, [1, 1, 0, 1]⟩, ⟨4357106264483344, 1000000000000000, [1, 1, 2, 1]⟩],
  [⟨-1452368754827781, 1000000000000000, [1, 1, 1, 0]⟩, ⟨4357106264483344, 1000000000000000, [1, 1, 1, 2]⟩],
  [⟨5412658773652733, 10000000000000000, [0, 0, 1, 0]⟩, ⟨-162379763209582, 100000000000000, [0, 2, 1, 0]⟩, ⟨-162379763209582, 100000000000000, [2, 0, 1, 0]⟩, ⟨487139289628746, 100000000000000, [2, 2, 1, 0]⟩],
  [⟨5412658773652733, 10000000000000000, [0, 1, 0, 0]⟩, ⟨-162379763209582, 100000000000000, [0, 1, 2, 0]⟩, ⟨-162379763209582, 100000000000000, [2, 1, 0, 0]⟩, ⟨487139289628746, 100000000000000, [2, 1, 2, 0]⟩],
  [⟨5412658773652733, 10000000000000000, [1, 0, 0, 0]⟩, ⟨-162379763209582, 100000000000000, [1, 0, 2, 0]⟩, ⟨-162379763209582, 100000000000000, [1, 2, 0, 0]⟩, ⟨487139289628746, 100000000000000, [1, 2, 2, 0]⟩],
  [⟨5412658773652733, 10000000000000000, [0, 0, 0, 1]⟩, ⟨-162379763209582, 100000000000000, [0, 2, 0, 1]⟩, ⟨-162379763209582, 100000000000000, [2, 0, 0, 1]⟩, ⟨487139289628746, 100000000000000, [2, 2, 0, 1]⟩],
  [⟨5412658773652733, 10000000000000000, [0, 0, 0, 1]⟩, ⟨-162379763209582, 100000000000000, [0, 0, 2, 1]⟩, ⟨-162379763209582, 100000000000000, [2, 0, 0, 1]⟩, ⟨487139289628746, 100000000000000, [2, 0, 2, 1]⟩],
  [⟨5412658773652733, 10000000000000000, [0, 0, 0, 1]⟩, ⟨-162379763209582, 100000000000000, [0, 0, 2, 1]⟩, ⟨-162379763209582, 100000000000000, [0, 2, 0, 1]⟩, ⟨487139289628746, 100000000000000, [0, 2, 2, 1]⟩],
  [⟨5412658773652733, 10000000000000000, [0, 1, 0, 0]⟩, ⟨-162379763209582, 100000000000000, [0, 1, 0, 2]⟩, ⟨-162379763209582, 100000000000000, [2, 1, 0, 0]⟩, ⟨487139289628746, 100000000000000, [2, 1, 0, 2]⟩],
  [⟨5412658773652733, 10000000000000000, [1, 0, 0, 0]⟩, ⟨-162379763209582, 100000000000000, [1, 0, 0, 2]⟩, ⟨-162379763209582, 100000000000000, [1, 2, 0, 0]⟩, ⟨487139289628746, 100000000000000, [1, 2, 0, 2]⟩],
  [⟨5412658773652733, 10000000000000000, [0, 0, 1, 0]⟩, ⟨-162379763209582, 100000000000000, [0, 0, 1, 2]⟩, ⟨-162379763209582, 100000000000000, [2, 0, 1, 0]⟩, ⟨487139289628746, 100000000000000, [2, 0, 1, 2]⟩],
  [⟨5412658773652733, 10000000000000000, [0, 0, 1, 0]⟩, ⟨-162379763209582, 100000000000000, [0, 0, 1, 2]⟩, ⟨-162379763209582, 100000000000000, [0, 2, 1, 0]⟩, ⟨487139289628746, 100000000000000, [0, 2, 1, 2]⟩],
  [⟨5412658773652733, 10000000000000000, [1, 0, 0, 0]⟩, ⟨-162379763209582, 100000000000000, [1, 0, 0, 2]⟩, ⟨-162379763209582, 100000000000000, [1, 0, 2, 0]⟩, ⟨487139289628746, 100000000000000, [1, 0, 2, 2]⟩],
  [⟨5412658773652733, 10000000000000000, [0, 1, 0, 0]⟩, ⟨-162379763209582, 100000000000000, [0, 1, 0, 2]⟩, ⟨-162379763209582, 100000000000000, [0, 1, 2, 0]⟩, ⟨487139289628746, 100000000000000, [0, 1, 2, 2]⟩],
  [⟨-2976470224947662, 1000000000000000, [1, 1, 1, 0]⟩, ⟨4960783708246104, 1000000000000000, [3, 1, 1, 0]⟩],
  [⟨-2976470224947662, 1000000000000000, [1, 1, 1, 0]⟩, ⟨4960783708246104, 1000000000000000, [1, 3, 1, 0]⟩],
  [⟨-2976470224947662, 1000000000000000, [1, 1, 1, 0]⟩, ⟨4960783708246104, 1000000000000000, [1, 1, 3, 0]⟩],
  [⟨-2976470224947662, 1000000000000000, [1, 1, 0, 1]⟩, ⟨4960783708246104, 1000000000000000, [3, 1, 0, 1]⟩],
  [⟨-2976470224947662, 1000000000000000, [1, 1, 0, 1]⟩, ⟨4960783708246104, 1000000000000000, [1, 3, 0, 1]⟩],
  [⟨-2976470224947662, 1000000000000000, [1, 0, 1, 1]⟩, ⟨4960783708246104, 1000000000000000, [3, 0, 1, 1]⟩],
  [⟨-2976470224947662, 1000000000000000, [0, 1, 1, 1]⟩, ⟨4960783708246104, 1000000000000000, [0, 3, 1, 1]⟩],
  [⟨-2976470224947662, 1000000000000000, [1, 0, 1, 1]⟩, ⟨4960783708246104, 1000000000000000, [1, 0, 3, 1]⟩],
  [⟨-2976470224947662, 1000000000000000, [0, 1, 1, 1]⟩, ⟨4960783708246104, 1000000000000000, [0, 1, 3, 1]⟩],
  [⟨-2976470224947662, 1000000000000000, [1, 1, 0, 1]⟩, ⟨4960783708246104, 1000000000000000, [1, 1, 0, 3]⟩],
  [⟨-2976470224947662, 1000000000000000, [1, 0, 1, 1]⟩, ⟨4960783708246104, 1000000000000000, [1, 0, 1, 3]⟩],
  [⟨-2976470224947662, 1000000000000000, [0, 1, 1, 1]⟩, ⟨4960783708246104, 1000000000000000, [0, 1, 1, 3]⟩],
  [⟨487139289628746, 1000000000000000, [0, 1, 0, 0]⟩, ⟨-487139289628746, 100000000000000, [2, 1, 0, 0]⟩, ⟨568329171233537, 100000000000000, [4, 1, 0, 0]⟩],
  [⟨487139289628746, 1000000000000000, [1, 0, 0, 0]⟩, ⟨-487139289628746, 100000000000000, [1, 2, 0, 0]⟩, ⟨568329171233537, 100000000000000, [1, 4, 0, 0]⟩],
  [⟨487139289628746, 1000000000000000, [0, 0, 1, 0]⟩, ⟨-487139289628746, 100000000000000, [2, 0, 1, 0]⟩, ⟨568329171233537, 100000000000000, [4, 0, 1, 0]⟩],
  [⟨487139289628746, 1000000000000000, [0, 0, 1, 0]⟩, ⟨-487139289628746, 100000000000000, [0, 2, 1, 0]⟩, ⟨568329171233537, 100000000000000, [0, 4, 1, 0]⟩],
  [⟨487139289628746, 1000000000000000, [1, 0, 0, 0]⟩, ⟨-487139289628746, 100000000000000, [1, 0, 2, 0]⟩, ⟨568329171233537, 100000000000000, [1, 0, 4, 0]⟩],
  [⟨487139289628746, 1000000000000000, [0, 1, 0, 0]⟩, ⟨-487139289628746, 100000000000000, [0, 1, 2, 0]⟩, ⟨568329171233537, 100000000000000, [0, 1, 4, 0]⟩],
  [⟨487139289628746, 1000000000000000, [0, 0, 0, 1]⟩, ⟨-487139289628746, 100000000000000, [2, 0, 0, 1]⟩, ⟨568329171233537, 100000000000000, [4, 0, 0, 1]⟩],
  [⟨487139289628746, 1000000000000000, [0, 0, 0, 1]⟩, ⟨-487139289628746, 100000000000000, [0, 2, 0, 1]⟩, ⟨568329171233537, 100000000000000, [0, 4, 0, 1]⟩],
  [⟨487139289628746, 1000000000000000, [0, 0, 0, 1]⟩, ⟨-487139289628746, 100000000000000, [0, 0, 2, 1]⟩, ⟨568329171233537, 100000000000000, [0, 0, 4, 1]⟩],
  [⟨487139289628746, 1000000000000000, [1, 0, 0, 0]⟩, ⟨-487139289628746, 100000000000000, [1, 0, 0, 2]⟩, ⟨568329171233537, 100000000000000, [1, 0, 0, 4]⟩],
  [⟨487139289628746, 1000000000000000, [0, 1, 0, 0]⟩, ⟨-487139289628746, 100000000000000, [0, 1, 0, 2]⟩, ⟨568329171233537, 100000000000000, [0, 1, 0, 4]⟩],
  [⟨487139289628746, 1000000000000000, [0, 0, 1, 0]⟩, ⟨-487139289628746, 100000000000000, [0, 0, 1, 2]⟩, ⟨568329171233537, 100000000000000, [0, 0, 1, 4]⟩],
  [⟨9375, 10000, [0, 0, 1, 1]⟩, ⟨-28125, 10000, [0, 2, 1, 1]⟩, ⟨-28125, 10000, [2, 0, 1, 1]⟩, ⟨84375, 10000, [2, 2, 1, 1]⟩],
  [⟨9375, 10000, [0, 1, 0, 1]⟩, ⟨-28125, 10000, [0, 1, 2, 1]⟩, ⟨-28125, 10000, [2, 1, 0, 1]⟩, ⟨84375, 10000, [2, 1, 2, 1]⟩],
  [⟨9375, 10000, [1, 0, 0, 1]⟩, ⟨-28125, 10000, [1, 0, 2, 1]⟩, ⟨-28125, 10000, [1, 2, 0, 1]⟩, ⟨84375, 10000, [1, 2, 2, 1]⟩],
  [⟨9375, 10000, [0, 1, 1, 0]⟩, ⟨-28125, 10000, [0, 1, 1, 2]⟩, ⟨-28125, 10000, [2, 1, 1, 0]⟩, ⟨84375, 10000, [2, 1, 1, 2]⟩],
  [⟨9375, 10000, [1, 0, 1, 0]⟩, ⟨-28125, 10000, [1, 0, 1, 2]⟩, ⟨-28125, 10000, [1, 2, 1, 0]⟩, ⟨84375, 10000, [1, 2, 1, 2]⟩],
  [⟨9375, 10000, [1, 1, 0, 0]⟩, ⟨-28125, 10000, [1, 1, 0, 2]⟩, ⟨-28125, 10000, [1, 1, 2, 0]⟩, ⟨84375, 10000, [1, 1, 2, 2]⟩],
  [⟨-515539765682532, 100000000000000, [1, 1, 1, 1]⟩, ⟨85923294280422, 10000000000000, [3, 1, 1, 1]⟩],
  [⟨-515539765682532, 100000000000000, [1, 1, 1, 1]⟩, ⟨85923294280422, 10000000000000, [1, 3, 1, 1]⟩],
  [⟨-515539765682532, 100000000000000, [1, 1, 1, 1]⟩, ⟨85923294280422, 10000000000000, [1, 1, 3, 1]⟩],
  [⟨-515539765682532, 100000000000000, [1, 1, 1, 1]⟩, ⟨85923294280422, 10000000000000, [1, 1, 1, 3]⟩],
  [⟨84375, 100000, [0, 1, 1, 0]⟩, ⟨-84375, 10000, [2, 1, 1, 0]⟩, ⟨984375, 100000, [4, 1, 1, 0]⟩],
  [⟨84375, 100000, [1, 0, 1, 0]⟩, ⟨-84375, 10000, [1, 2, 1, 0]⟩, ⟨984375, 100000, [1, 4, 1, 0]⟩],
  [⟨84375, 100000, [1, 1, 0, 0]⟩, ⟨-84375, 10000, [1, 1, 2, 0]⟩, ⟨984375, 100000, [1, 1, 4, 0]⟩],
  [⟨84375, 100000, [0, 1, 0, 1]⟩, ⟨-84375, 10000, [2, 1, 0, 1]⟩, ⟨984375, 100000, [4, 1, 0, 1]⟩],
  [⟨84375, 100000, [1, 0, 0, 1]⟩, ⟨-84375, 10000, [1, 2, 0, 1]⟩, ⟨984375, 100000, [1, 4, 0, 1]⟩],
  [⟨84375, 100000, [0, 0, 1, 1]⟩, ⟨-84375, 10000, [2, 0, 1, 1]⟩, ⟨984375, 100000, [4, 0, 1, 1]⟩],
  [⟨84375, 100000, [0, 0, 1, 1]⟩, ⟨-84375, 10000, [0, 2, 1, 1]⟩, ⟨984375, 100000, [0, 4, 1, 1]⟩],
  [⟨84375, 100000, [1, 0, 0, 1]⟩, ⟨-84375, 10000, [1, 0, 2, 1]⟩, ⟨984375, 100000, [1, 0, 4, 1]⟩],
  [⟨84375, 100000, [0, 1, 0, 1]⟩, ⟨-84375, 10000, [0, 1, 2, 1]⟩, ⟨984375, 100000, [0, 1, 4, 1]⟩],
  [⟨84375, 100000, [1, 1, 0, 0]⟩, ⟨-84375, 10000, [1, 1, 0, 2]⟩, ⟨984375, 100000, [1, 1, 0, 4]⟩],
  [⟨84375, 100000, [1, 0, 1, 0]⟩, ⟨-84375, 10000, [1, 0, 1, 2]⟩, ⟨984375, 100000, [1, 0, 1, 4]⟩],
  [⟨84375, 100000, [0, 1, 1, 0]⟩, ⟨-84375, 10000, [0, 1, 1, 2]⟩, ⟨984375, 100000, [0, 1, 1, 4]⟩],
  [⟨146141786888624, 100000000000000, [0, 1, 1, 1]⟩, ⟨-1461417868886241, 100000000000000, [2, 1, 1, 1]⟩, ⟨1704987513700614, 100000000000000, [4, 1, 1, 1]⟩],
  [⟨146141786888624, 100000000000000, [1, 0, 1, 1]⟩, ⟨-1461417868886241, 100000000000000, [1, 2, 1, 1]⟩, ⟨1704987513700614, 100000000000000, [1, 4, 1, 1]⟩],
  [⟨146141786888624, 100000000000000, [1, 1, 0, 1]⟩, ⟨-1461417868886241, 100000000000000, [1, 1, 2, 1]⟩, ⟨1704987513700614, 100000000000000, [1, 1, 4, 1]⟩],
  [⟨146141786888624, 100000000000000, [1, 1, 1, 0]⟩, ⟨-1461417868886241, 100000000000000, [1, 1, 1, 2]⟩, ⟨1704987513700614, 100000000000000, [1, 1, 1, 4]⟩]]

/-- computeInterpolationMatrices.py:3043-3062. -/
def modalTen4p1 : List Poly := [
  [⟨25, 100, [0, 0, 0, 0]⟩],
  [⟨4330127018922192, 10000000000000000, [1, 0, 0, 0]⟩],
  [⟨4330127018922192, 10000000000000000, [0, 1, 0, 0]⟩],
  [⟨4330127018922192, 10000000000000000, [0, 0, 1, 0]⟩],
  [⟨4330127018922192, 10000000000000000, [0, 0, 0, 1]⟩],
  [⟨75, 100, [1, 1, 0, 0]⟩],
  [⟨75, 100, [1, 0, 1, 0]⟩],
  [⟨75, 100, [0, 1, 1, 0]⟩],
  [⟨75, 100, [1, 0, 0, 1]⟩],
  [⟨75, 100, [0, 1, 0, 1]⟩],
  [⟨75, 100, [0, 0, 1, 1]⟩],
  [⟨1299038105676659, 1000000000000000, [1, 1, 1, 0]⟩],
  [⟨1299038105676659, 1000000000000000, [1, 1, 0, 1]⟩],
  [⟨1299038105676659, 1000000000000000, [1, 0, 1, 1]⟩],
  [⟨1299038105676659, 1000000000000000, [0, 1, 1, 1]⟩],
  [⟨225, 100, [1, 1, 1, 1]⟩]]

/-- computeInterpolationMatrices.py:3095-3358. -/
def modalTen4p2 : List Poly := [
  [⟨25, 100, [0, 0, 0, 0]⟩],
  [⟨4330127018922193, 10000000000000000, [1, 0, 0, 0]⟩],
  [⟨4330127018922193, 10000000000000000, [0, 1, 0, 0]⟩],
  [⟨4330127018922193, 10000000000000000, [0, 0, 1, 0]⟩],
  [⟨4330127018922193, 10000000000000000, [0, 0, 0, 1]⟩],
  [⟨75, 100, [1, 1, 0, 0]⟩],
  [⟨75, 100, [1, 0, 1, 0]⟩],
  [⟨75, 100, [0, 1, 1, 0]⟩],
  [⟨75, 100, [1, 0, 0, 1]⟩],
  [⟨75, 100, [0, 1, 0, 1]⟩],
  [⟨75, 100, [0, 0, 1, 1]⟩],
  [⟨-2795084971874737, 10000000000000000, [0, 0, 0, 0]⟩, ⟨8385254915624212, 10000000000000000, [2, 0, 0, 0]⟩],
  [⟨-2795084971874737, 10000000000000000, [0, 0, 0, 0]⟩, ⟨8385254915624212, 10000000000000000, [0, 2, 0, 0]⟩],
  [⟨-2795084971874737, 10000000000000000, [0, 0, 0, 0]⟩, ⟨8385254915624212, 10000000000000000, [0, 0, 2, 0]⟩],
  [⟨-2795084971874737, 10000000000000000, [0, 0, 0, 0]⟩, ⟨8385254915624212, 10000000000000000, [0, 0, 0, 2]⟩],
  [⟨1299038105676658, 1000000000000000, [1, 1, 1, 0]⟩],
  [⟨1299038105676658, 1000000000000000, [1, 1, 0, 1]⟩],
  [⟨1299038105676658, 1000000000000000, [1, 0, 1, 1]⟩],
  [⟨1299038105676658, 1000000000000000, [0, 1, 1, 1]⟩],
  [⟨-4841229182759271, 10000000000000000, [0, 1, 0, 0]⟩, ⟨1452368754827781, 1000000000000000, [2, 1, 0, 0]⟩],
  [⟨-4841229182759271, 10000000000000000, [1, 0, 0, 0]⟩, ⟨1452368754827781, 1000000000000000, [1, 2, 0, 0]⟩],
  [⟨-4841229182759271, 10000000000000000, [0, 0, 1, 0]⟩, ⟨1452368754827781, 1000000000000000, [2, 0, 1, 0]⟩],
  [⟨-4841229182759271, 10000000000000000, [0, 0, 1, 0]⟩, ⟨1452368754827781, 1000000000000000, [0, 2, 1, 0]⟩],
  [⟨-4841229182759271, 10000000000000000, [1, 0, 0, 0]⟩, ⟨1452368754827781, 1000000000000000, [1, 0, 2, 0]⟩],
  [⟨-4841229182759271, 10000000000000000, [0, 1, 0, 0]⟩, ⟨1452368754827781, 1000000000000000, [0, 1, 2, 0]⟩],
  [⟨-4841229182759271, 10000000000000000, [0, 0, 0, 1]⟩, ⟨1452368754827781, 1000000000000000, [2, 0, 0, 1]⟩],
  [⟨-4841229182759271, 10000000000000000, [0, 0, 0, 1]⟩, ⟨1452368754827781, 1000000000000000, [0, 2, 0, 1]⟩],
  [⟨-4841229182759271, 10000000000000000, [0, 0, 0, 1]⟩, ⟨1452368754827781, 1000000000000000, [0, 0, 2, 1]⟩],
  [⟨-4841229182759271, 10000000000000000, [1, 0, 0, 0]⟩, ⟨1452368754827781, 1000000000000000, [1, 0, 0, 2]⟩],
  [⟨-4841229182759271, 10000000000000000, [0, 1, 0, 0]⟩, ⟨1452368754827781, 1000000000000000, [0, 1, 0, 2]⟩],
  [⟨-4841229182759271, 10000000000000000, [0, 0, 1, 0]⟩, ⟨1452368754827781, 1000000000000000, [0, 0, 1, 2]⟩],
  [⟨225, 100, [1, 1, 1, 1]⟩],
  [⟨-8385254915624212, 10000000000000000, [0, 1, 1, 0]⟩, ⟨2515576474687264, 1000000000000000, [2, 1, 1, 0]⟩],
  [⟨-8385254915624212, 10000000000000000, [1, 0, 1, 0]⟩, ⟨2515576474687264, 1000000000000000, [1, 2, 1, 0]⟩],
  [⟨-8385254915624212, 10000000000000000, [1, 1, 0, 0]⟩, ⟨2515576474687264, 1000000000000000, [1, 1, 2, 0]⟩],
  [⟨-8385254915624212, 10000000000000000, [0, 1, 0, 1]⟩, ⟨2515576474687264, 1000000000000000, [2, 1, 0, 1]⟩],
  [⟨-8385254915624212, 10000000000000000, [1, 0, 0, 1]⟩, ⟨2515576474687264, 1000000000000000, [1, 2, 0, 1]⟩],
  [⟨-8385254915624212, 10000000000000000, [0, 0, 1, 1]⟩, ⟨2515576474687264, 1000000000000000, [2, 0, 1, 1]⟩],
  [⟨-8385254915624212, 10000000000000000, [0, 0, 1, 1]⟩, ⟨2515576474687264, 1000000000000000, [0, 2, 1, 1]⟩],
  [⟨-8385254915624212, 10000000000000000, [1, 0, 0, 1]⟩, ⟨2515576474687264, 1000000000000000, [1, 0, 2, 1]⟩],
  [⟨-8385254915624212, 10000000000000000, [0, 1, 0, 1]⟩, ⟨2515576474687264, 1000000000000000, [0, 1, 2, 1]⟩],
  [⟨-8385254915624212, 10000000000000000, [1, 1, 0, 0]⟩, ⟨2515576474687264, 1000000000000000, [1, 1, 0, 2]⟩],
  [⟨-8385254915624212, 10000000000000000, [1, 0, 1, 0]⟩, ⟨2515576474687264, 1000000000000000, [1, 0, 1, 2]⟩],
  [⟨-8385254915624212, 10000000000000000, [0, 1, 1, 0]⟩, ⟨2515576474687264, 1000000000000000, [0, 1, 1, 2]⟩],
  [⟨3125, 10000, [0, 0, 0, 0]⟩, ⟨-9375, 10000, [0, 2, 0, 0]⟩, ⟨-9375, 10000, [2, 0, 0, 0]⟩, ⟨28125, 10000, [2, 2, 0, 0]⟩],
  [⟨3125, 10000, [0, 0, 0, 0]⟩, ⟨-9375, 10000, [0, 0, 2, 0]⟩, ⟨-9375, 10000, [2, 0, 0, 0]⟩, ⟨28125, 10000, [2, 0, 2, 0]⟩],
  [⟨3125, 10000, [0, 0, 0, 0]⟩, ⟨-9375, 10000, [0, 0, 2, 0]⟩, ⟨-9375, 10000, [0, 2, 0, 0]⟩, ⟨28125, 10000, [0, 2, 2, 0]⟩],
  [⟨3125, 10000, [0, 0, 0, 0]⟩, ⟨-9375, 10000, [0, 0, 0, 2]⟩, ⟨-9375, 10000, [2, 0, 0, 0]⟩, ⟨28125, 10000, [2, 0, 0, 2]⟩],
  [⟨3125, 10000, [0, 0, 0, 0]⟩, ⟨-9375, 10000, [0, 0, 0, 2]⟩, ⟨-9375, 10000, [0, 2, 0, 0]⟩, ⟨28125, 10000, [0, 2, 0, 2]⟩],
  [⟨3125, 10000, [0, 0, 0, 0]⟩, ⟨-9375, 10000, [0, 0, 0, 2]⟩, ⟨-9375, 10000, [0, 0, 2, 0]⟩, ⟨28125, 10000, [0, 0, 2, 2]⟩],
  [⟨-1452368754827781, 1000000000000000, [0, 1, 1, 1]⟩, ⟨4357106264483344, 1000000000000000, [2, 1, 1, 1]⟩],
  [⟨-1452368754827781, 1000000000000000, [1, 0, 1, 1]⟩, ⟨4357106264483344, 1000000000000000, [1, 2, 1, 1]⟩],
  [⟨-1452368754827781, 1000000000000000, [1, 1, 0, 1]⟩, ⟨4357106264483344, 1000000000000000, [1, 1, 2, 1]⟩],
  [⟨-1452368754827781, 1000000000000000, [1, 1, 1, 0]⟩, ⟨4357106264483344, 1000000000000000, [1, 1, 1, 2]⟩],
  [⟨541265877365274, 1000000000000000, [0, 0, 1, 0]⟩, ⟨-1623797632095822, 1000000000000000, [0, 2, 1, 0]⟩, ⟨-1623797632095822, 1000000000000000, [2, 0, 1, 0]⟩, ⟨4871392896287466, 1000000000000000, [2, 2, 1, 0]⟩],
  [⟨541265877365274, 1000000000000000, [0, 1, 0, 0]⟩, ⟨-1623797632095822, 1000000000000000, [0, 1, 2, 0]⟩, ⟨-1623797632095822, 1000000000000000, [2, 1, 0, 0]⟩, ⟨4871392896287466, 1000000000000000, [2, 1, 2, 0]⟩],
  [⟨541265877365274, 1000000000000000, [1, 0, 0, 0]⟩, ⟨-1623797632095822, 1000000000000000, [1, 0, 2, 0]⟩, ⟨-1623797632095822, 1000000000000000, [1, 2, 0, 0]⟩, ⟨4871392896287466, 1000000000000000, [1, 2, 2, 0]⟩],
  [⟨541265877365274, 1000000000000000, [0, 0, 0, 1]⟩, ⟨-1623797632095822, 1000000000000000, [0, 2, 0, 1]⟩, ⟨-1623797632095822, 1000000000000000, [2, 0, 0, 1]⟩, ⟨4871392896287466, 1000000000000000, [2, 2, 0, 1]⟩],
  [⟨541265877365274, 1000000000000000, [0, 0, 0, 1]⟩, ⟨-1623797632095822, 1000000000000000, [0, 0, 2, 1]⟩, ⟨-1623797632095822, 1000000000000000, [2, 0, 0, 1]⟩, ⟨4871392896287466, 1000000000000000, [2, 0, 2, 1]⟩],
  [⟨541265877365274, 1000000000000000, [0, 0, 0, 1]⟩, ⟨-1623797632095822, 1000000000000000, [0, 0, 2, 1]⟩, ⟨-1623797632095822, 1000000000000000, [0, 2, 0, 1]⟩, ⟨4871392896287466, 1000000000000000, [0, 2, 2, 1]⟩],
  [⟨541265877365274, 1000000000000000, [0, 1, 0, 0]⟩, ⟨-1623797632095822, 1000000000000000, [0, 1, 0, 2]⟩, ⟨-1623797632095822, 1000000000000000, [2, 1, 0, 0]⟩, ⟨4871392896287466, 1000000000000000, [2, 1, 0, 2]⟩],
  [⟨541265877365274, 1000000000000000, [1, 0, 0, 0]⟩, ⟨-1623797632095822, 1000000000000000, [1, 0, 0, 2]⟩, ⟨-1623797632095822, 1000000000000000, [1, 2, 0, 0]⟩, ⟨4871392896287466, 1000000000000000, [1, 2, 0, 2]⟩],
  [⟨541265877365274, 1000000000000000, [0, 0, 1, 0]⟩, ⟨-1623797632095822, 1000000000000000, [0, 0, 1, 2]⟩, ⟨-1623797632095822, 1000000000000000, [2, 0, 1, 0]⟩, ⟨4871392896287466, 1000000000000000, [2, 0, 1, 2]⟩],
  [⟨541265877365274, 1000000000000000, [0, 0, 1, 0]⟩, ⟨-1623797632095822, 1000000000000000, [0, 0, 1, 2]⟩, ⟨-1623797632095822, 1000000000000000, [0, 2, 1, 0]⟩, ⟨4871392896287466, 1000000000000000, [0, 2, 1, 2]⟩],
  [⟨541265877365274, 1000000000000000, [1, 0, 0, 0]⟩, ⟨-1623797632095822, 1000000000000000, [1, 0, 0, 2]⟩, ⟨-1623797632095822, 1000000000000000, [1, 0, 2, 0]⟩, ⟨4871392896287466, 1000000000000000, [1, 0, 2, 2]⟩],
  [⟨541265877365274, 1000000000000000, [0, 1, 0, 0]⟩, ⟨-1623797632095822, 1000000000000000, [0, 1, 0, 2]⟩, ⟨-1623797632095822, 1000000000000000, [0, 1, 2, 0]⟩, ⟨4871392896287466, 1000000000000000, [0, 1, 2, 2]⟩],
  [⟨9375, 10000, [0, 0, 1, 1]⟩, ⟨-28125, 10000, [0, 2, 1, 1]⟩, ⟨-28125, 10000, [2, 0, 1, 1]⟩, ⟨84375, 10000, [2, 2, 1, 1]⟩],
  [⟨9375, 10000, [0, 1, 0, 1]⟩, ⟨-28125, 10000, [0, 1, 2, 1]⟩, ⟨-28125, 10000, [2, 1, 0, 1]⟩, ⟨84375, 10000, [2, 1, 2, 1]⟩],
  [⟨9375, 10000, [1, 0, 0, 1]⟩, ⟨-28125, 10000, [1, 0, 2, 1]⟩, ⟨-28125, 10000, [1, 2, 0, 1]⟩, ⟨84375, 10000, [1, 2, 2, 1]⟩],
  [⟨9375, 10000, [0, 1, 1, 0]⟩, ⟨-28125, 10000, [0, 1, 1, 2]⟩, ⟨-28125, 10000, [2, 1, 1, 0]⟩, ⟨84375, 10000, [2, 1, 1, 2]⟩],
  [⟨9375, 10000, [1, 0, 1, 0]⟩, ⟨-28125, 10000, [1, 0, 1, 2]⟩, ⟨-28125, 10000, [1, 2, 1, 0]⟩, ⟨84375, 10000, [1, 2, 1, 2]⟩],
  [⟨9375, 10000, [1, 1, 0, 0]⟩, ⟨-28125, 10000, [1, 1, 0, 2]⟩, ⟨-28125, 10000, [1, 1, 2, 0]⟩, ⟨84375, 10000, [1, 1, 2, 2]⟩],
  [⟨-3493856214843422, 10000000000000000, [0, 0, 0, 0]⟩, ⟨1048156864453027, 1000000000000000, [0, 0, 2, 0]⟩, ⟨1048156864453027, 1000000000000000, [0, 2, 0, 0]⟩, ⟨-314447059335908, 100000000000000, [0, 2, 2, 0]⟩, ⟨1048156864453027, 1000000000000000, [2, 0, 0, 0]⟩, ⟨-314447059335908, 100000000000000, [2, 0, 2, 0]⟩, ⟨-314447059335908, 100000000000000, [2, 2, 0, 0]⟩, ⟨943341178007724, 100000000000000, [2, 2, 2, 0]⟩],
  [⟨-3493856214843422, 10000000000000000, [0, 0, 0, 0]⟩, ⟨1048156864453027, 1000000000000000, [0, 0, 0, 2]⟩, ⟨1048156864453027, 1000000000000000, [0, 2, 0, 0]⟩, ⟨-314447059335908, 100000000000000, [0, 2, 0, 2]⟩, ⟨1048156864453027, 1000000000000000, [2, 0, 0, 0]⟩, ⟨-314447059335908, 100000000000000, [2, 0, 0, 2]⟩, ⟨-314447059335908, 100000000000000, [2, 2, 0, 0]⟩, ⟨943341178007724, 100000000000000, [2, 2, 0, 2]⟩],
  [⟨-3493856214843422, 10000000000000000, [0, 0, 0, 0]⟩, ⟨1048156864453027, 1000000000000000, [0, 0, 0, 2]⟩, ⟨1048156864453027, 1000000000000000, [0, 0, 2, 0]⟩, ⟨-314447059335908, 100000000000000, [0, 0, 2, 2]⟩, ⟨1048156864453027, 1000000000000000, [2, 0, 0, 0]⟩, ⟨-314447059335908, 100000000000000, [2, 0, 0, 2]⟩, ⟨-314447059335908, 100000000000000, [2, 0, 2, 0]⟩, ⟨943341178007724, 100000000000000, [2, 0, 2, 2]⟩],
  [⟨-3493856214843422, 10000000000000000, [0, 0, 0, 0]⟩, ⟨1048156864453027, 1000000000000000, [0, 0, 0, 2]⟩, ⟨1048156864453027, 1000000000000000, [0, 0, 2, 0]⟩, ⟨-314447059335908, 100000000000000, [0, 0, 2, 2]⟩, ⟨1048156864453027, 1000000000000000, [0, 2, 0, 0]⟩, ⟨-314447059335908, 100000000000000, [0, 2, 0, 2]⟩, ⟨-314447059335908, 100000000000000, [0, 2, 2, 0]⟩, ⟨943341178007724, 100000000000000, [0, 2, 2, 2]⟩],
  [⟨-6051536478449089, 10000000000000000, [0, 0, 0, 1]⟩, ⟨1815460943534727, 1000000000000000, [0, 0, 2, 1]⟩, ⟨1815460943534727, 1000000000000000, [0, 2, 0, 1]⟩, ⟨-544638283060418, 100000000000000, [0, 2, 2, 1]⟩, ⟨1815460943534727, 1000000000000000, [2, 0, 0, 1]⟩, ⟨-544638283060418, 100000000000000, [2, 0, 2, 1]⟩, ⟨-544638283060418, 100000000000000, [2, 2, 0, 1]⟩, ⟨1633914849181254, 100000000000000, [2, 2, 2, 1]⟩],
  [⟨-6051536478449089, 10000000000000000, [0, 0, 1, 0]⟩, ⟨1815460943534727, 1000000000000000, [0, 0, 1, 2]⟩, ⟨1815460943534727, 1000000000000000, [0, 2, 1, 0]⟩, ⟨-544638283060418, 100000000000000, [0, 2, 1, 2]⟩, ⟨1815460943534727, 1000000000000000, [2, 0, 1, 0]⟩, ⟨-544638283060418, 100000000000000, [2, 0, 1, 2]⟩, ⟨-544638283060418, 100000000000000, [2, 2, 1, 0]⟩, ⟨1633914849181254, 100000000000000, [2, 2, 1, 2]⟩],
  [⟨-6051536478449089, 10000000000000000, [0, 1, 0, 0]⟩, ⟨1815460943534727, 1000000000000000, [0, 1, 0, 2]⟩, ⟨1815460943534727, 1000000000000000, [0, 1, 2, 0]⟩, ⟨-544638283060418, 100000000000000, [0, 1, 2, 2]⟩, ⟨1815460943534727, 1000000000000000, [2, 1, 0, 0]⟩, ⟨-544638283060418, 100000000000000, [2, 1, 0, 2]⟩, ⟨-544638283060418, 100000000000000, [2, 1, 2, 0]⟩, ⟨1633914849181254, 100000000000000, [2, 1, 2, 2]⟩],
  [⟨-6051536478449089, 10000000000000000, [1, 0, 0, 0]⟩, ⟨1815460943534727, 1000000000000000, [1, 0, 0, 2]⟩, ⟨1815460943534727, 1000000000000000, [1, 0, 2, 0]⟩, ⟨-544638283060418, 100000000000000, [1, 0, 2, 2]⟩, ⟨1815460943534727, 1000000000000000, [1, 2, 0, 0]⟩, ⟨-544638283060418, 100000000000000, [1, 2, 0, 2]⟩, ⟨-544638283060418, 100000000000000, [1, 2, 2, 0]⟩, ⟨1633914849181254, 100000000000000, [1, 2, 2, 2]⟩],
  [⟨390625, 1000000, [0, 0, 0, 0]⟩, ⟨-1171875, 1000000, [0, 0, 0, 2]⟩, ⟨-1171875, 1000000, [0, 0, 2, 0]⟩, ⟨3515625, 1000000, [0, 0, 2, 2]⟩, ⟨-1171875, 1000000, [0, 2, 0, 0]⟩, ⟨3515625, 1000000, [0, 2, 0, 2]⟩, ⟨3515625, 1000000, [0, 2, 2, 0]⟩, ⟨-10546875, 1000000, [0, 2, 2, 2]⟩, ⟨-1171875, 1000000, [2, 0, 0, 0]⟩, ⟨3515625, 1000000, [2, 0, 0, 2]⟩, ⟨3515625, 1000000, [2, 0, 2, 0]⟩, ⟨-10546875, 1000000, [2, 0, 2, 2]⟩, ⟨3515625, 1000000, [2, 2, 0, 0]⟩, ⟨-10546875, 1000000, [2, 2, 0, 2]⟩, ⟨-10546875, 1000000, [2, 2, 2, 0]⟩, ⟨31640625, 1000000, [2, 2, 2, 2]⟩]]

/-- computeInterpolationMatrices.py:3398-3428. -/
def modalGkh4p1 : List Poly := [
  [⟨25, 100, [0, 0, 0, 0]⟩],
  [⟨4330127018922193, 10000000000000000, [1, 0, 0, 0]⟩],
  [⟨4330127018922193, 10000000000000000, [0, 1, 0, 0]⟩],
  [⟨4330127018922193, 10000000000000000, [0, 0, 1, 0]⟩],
  [⟨4330127018922193, 10000000000000000, [0, 0, 0, 1]⟩],
  [⟨75, 100, [1, 1, 0, 0]⟩],
  [⟨75, 100, [1, 0, 1, 0]⟩],
  [⟨75, 100, [0, 1, 1, 0]⟩],
  [⟨75, 100, [1, 0, 0, 1]⟩],
  [⟨75, 100, [0, 1, 0, 1]⟩],
  [⟨75, 100, [0, 0, 1, 1]⟩],
  [⟨1299038105676658, 1000000000000000, [1, 1, 1, 0]⟩],
  [⟨1299038105676658, 1000000000000000, [1, 1, 0, 1]⟩],
  [⟨1299038105676658, 1000000000000000, [1, 0, 1, 1]⟩],
  [⟨1299038105676658, 1000000000000000, [0, 1, 1, 1]⟩],
  [⟨225, 100, [1, 1, 1, 1]⟩],
  [⟨-27950849718747370538248361458596, 100000000000000000000000000000000, [0, 0, 0, 0]⟩, ⟨8385254915624212, 10000000000000000, [0, 0, 2, 0]⟩],
  [⟨-4841229182759269515877081724073, 10000000000000000000000000000000, [1, 0, 0, 0]⟩, ⟨1452368754827781, 1000000000000000, [1, 0, 2, 0]⟩],
  [⟨-4841229182759269515877081724073, 10000000000000000000000000000000, [0, 1, 0, 0]⟩, ⟨1452368754827781, 1000000000000000, [0, 1, 2, 0]⟩],
  [⟨-4841229182759269515877081724073, 10000000000000000000000000000000, [0, 0, 0, 1]⟩, ⟨1452368754827781, 1000000000000000, [0, 0, 2, 1]⟩],
  [⟨-8385254915624212494807841770912, 10000000000000000000000000000000, [1, 1, 0, 0]⟩, ⟨2515576474687264, 1000000000000000, [1, 1, 2, 0]⟩],
  [⟨-8385254915624212494807841770912, 10000000000000000000000000000000, [1, 0, 0, 1]⟩, ⟨2515576474687264, 1000000000000000, [1, 0, 2, 1]⟩],
  [⟨-8385254915624212494807841770912, 10000000000000000000000000000000, [0, 1, 0, 1]⟩, ⟨2515576474687264, 1000000000000000, [0, 1, 2, 1]⟩],
  [⟨-14523687548277811880964578505552, 10000000000000000000000000000000, [1, 1, 0, 1]⟩, ⟨4357106264483344, 1000000000000000, [1, 1, 2, 1]⟩]]

/-- computeInterpolationMatrices.py:3469-3499. -/
def modalHyb4p1 : List Poly := [
  [⟨25, 100, [0, 0, 0, 0]⟩],
  [⟨4330127018922194, 10000000000000000, [1, 0, 0, 0]⟩],
  [⟨4330127018922194, 10000000000000000, [0, 1, 0, 0]⟩],
  [⟨4330127018922194, 10000000000000000, [0, 0, 1, 0]⟩],
  [⟨4330127018922194, 10000000000000000, [0, 0, 0, 1]⟩],
  [⟨75, 100, [1, 1, 0, 0]⟩],
  [⟨75, 100, [1, 0, 1, 0]⟩],
  [⟨75, 100, [0, 1, 1, 0]⟩],
  [⟨75, 100, [1, 0, 0, 1]⟩],
  [⟨75, 100, [0, 1, 0, 1]⟩],
  [⟨75, 100, [0, 0, 1, 1]⟩],
  [⟨1299038105676658, 1000000000000000, [1, 1, 1, 0]⟩],
  [⟨1299038105676658, 1000000000000000, [1, 1, 0, 1]⟩],
  [⟨1299038105676658, 1000000000000000, [1, 0, 1, 1]⟩],
  [⟨1299038105676658, 1000000000000000, [0, 1, 1, 1]⟩],
  [⟨225, 100, [1, 1, 1, 1]⟩],
  [⟨-27950849718747367204915028125263, 100000000000000000000000000000000, [0, 0, 0, 0]⟩, ⟨8385254915624211, 10000000000000000, [0, 0, 0, 2]⟩],
  [⟨-4841229182759269515877081724073, 10000000000000000000000000000000, [1, 0, 0, 0]⟩, ⟨1452368754827781, 1000000000000000, [1, 0, 0, 2]⟩],
  [⟨-4841229182759269515877081724073, 10000000000000000000000000000000, [0, 1, 0, 0]⟩, ⟨1452368754827781, 1000000000000000, [0, 1, 0, 2]⟩],
  [⟨-4841229182759269515877081724073, 10000000000000000000000000000000, [0, 0, 1, 0]⟩, ⟨1452368754827781, 1000000000000000, [0, 0, 1, 2]⟩],
  [⟨-8385254915624212494807841770912, 10000000000000000000000000000000, [1, 1, 0, 0]⟩, ⟨2515576474687264, 1000000000000000, [1, 1, 0, 2]⟩],
  [⟨-8385254915624212494807841770912, 10000000000000000000000000000000, [1, 0, 1, 0]⟩, ⟨2515576474687264, 1000000000000000, [1, 0, 1, 2]⟩],
  [⟨-8385254915624212494807841770912, 10000000000000000000000000000000, [0, 1, 1, 0]⟩, ⟨2515576474687264, 1000000000000000, [0, 1, 1, 2]⟩],
  [⟨-14523687548277811880964578505552, 10000000000000000000000000000000, [1, 1, 1, 0]⟩, ⟨4357106264483344, 1000000000000000, [1, 1, 1, 2]⟩]]

/-- computeInterpolationMatrices.py:3539-3830. -/
def nodalSer4p1 : List Poly := [
  [⟨625, 10000, [0, 0, 0, 0]⟩, ⟨-625, 10000, [0, 0, 0, 1]⟩, ⟨-625, 10000, [0, 0, 1, 0]⟩, ⟨625, 10000, [0, 0, 1, 1]⟩, ⟨-625, 10000, [0, 1, 0, 0]⟩, ⟨625, 10000, [0, 1, 0, 1]⟩, ⟨625, 10000, [0, 1, 1, 0]⟩, ⟨-625, 10000, [0, 1, 1, 1]⟩, ⟨-625, 10000, [1, 0, 0, 0]⟩, ⟨625, 10000, [1, 0, 0, 1]⟩, ⟨625, 10000, [1, 0, 1, 0]⟩, ⟨-625, 10000, [1, 0, 1, 1]⟩, ⟨625, 10000, [1, 1, 0, 0]⟩, ⟨-625, 10000, [1, 1, 0, 1]⟩, ⟨-625, 10000, [1, 1, 1, 0]⟩, ⟨625, 10000, [1, 1, 1, 1]⟩],
  [⟨625, 10000, [0, 0, 0, 0]⟩, ⟨-625, 10000, [0, 0, 0, 1]⟩, ⟨-625, 10000, [0, 0, 1, 0]⟩, ⟨625, 10000, [0, 0, 1, 1]⟩, ⟨-625, 10000, [0, 1, 0, 0]⟩, ⟨625, 10000, [0, 1, 0, 1]⟩, ⟨625, 10000, [0, 1, 1, 0]⟩, ⟨-625, 10000, [0, 1, 1, 1]⟩, ⟨625, 10000, [1, 0, 0, 0]⟩, ⟨-625, 10000, [1, 0, 0, 1]⟩, ⟨-625, 10000, [1, 0, 1, 0]⟩, ⟨625, 10000, [1, 0, 1, 1]⟩, ⟨-625, 10000, [1, 1, 0, 0]⟩, ⟨625, 10000, [1, 1, 0, 1]⟩, ⟨625, 10000, [1, 1, 1, 0]⟩, ⟨-625, 10000, [1, 1, 1, 1]⟩],
  [⟨625, 10000, [0, 0, 0, 0]⟩, ⟨-625, 10000, [0, 0, 0, 1]⟩, ⟨-625, 10000, [0, 0, 1, 0]⟩, ⟨625, 10000, [0, 0, 1, 1]⟩, ⟨625, 10000, [0, 1, 0, 0]⟩, ⟨-625, 10000, [0, 1, 0, 1]⟩, ⟨-625, 10000, [0, 1, 1, 0]⟩, ⟨625, 10000, [0, 1, 1, 1]⟩, ⟨-625, 10000, [1, 0, 0, 0]⟩, ⟨625, 10000, [1, 0, 0, 1]⟩, ⟨625, 10000, [1, 0, 1, 0]⟩, ⟨-625, 10000, [1, 0, 1, 1]⟩, ⟨-625, 10000, [1, 1, 0, 0]⟩, ⟨625, 10000, [1, 1, 0, 1]⟩, ⟨625, 10000, [1, 1, 1, 0]⟩, ⟨-625, 10000, [1, 1, 1, 1]⟩],
  [⟨625, 10000, [0, 0, 0, 0]⟩, ⟨-625, 10000, [0, 0, 0, 1]⟩, ⟨-625, 10000, [0, 0, 1, 0]⟩, ⟨625, 10000, [0, 0, 1, 1]⟩, ⟨625, 10000, [0, 1, 0, 0]⟩, ⟨-625, 10000, [0, 1, 0, 1]⟩, ⟨-625, 10000, [0, 1, 1, 0]⟩, ⟨625, 10000, [0, 1, 1, 1]⟩, ⟨625, 10000, [1, 0, 0, 0]⟩, ⟨-625, 10000, [1, 0, 0, 1]⟩, ⟨-625, 10000, [1, 0, 1, 0]⟩, ⟨625, 10000, [1, 0, 1, 1]⟩, ⟨625, 10000, [1, 1, 0, 0]⟩, ⟨-625, 10000, [1, 1, 0, 1]⟩, ⟨-625, 10000, [1, 1, 1, 0]⟩, ⟨625, 10000, [1, 1, 1, 1]⟩],
  [⟨625, 10000, [0, 0, 0, 0]⟩, ⟨-625, 10000, [0, 0, 0, 1]⟩, ⟨625, 10000, [0, 0, 1, 0]⟩, ⟨-625, 10000, [0, 0, 1, 1]⟩, ⟨-625, 10000, [0, 1, 0, 0]⟩, ⟨625, 10000, [0, 1, 0, 1]⟩, ⟨-625, 10000, [0, 1, 1, 0]⟩, ⟨625, 10000, [0, 1, 1, 1]⟩, ⟨-625, 10000, [1, 0, 0, 0]⟩, ⟨625, 10000, [1, 0, 0, 1]⟩, ⟨-625, 10000, [1, 0, 1, 0]⟩, ⟨625, 10000, [1, 0, 1, 1]⟩, ⟨625, 10000, [1, 1, 0, 0]⟩, ⟨-625, 10000, [1, 1, 0, 1]⟩, ⟨625, 10000, [1, 1, 1, 0]⟩, ⟨-625, 10000, [1, 1, 1, 1]⟩],
  [⟨625, 10000, [0, 0, 0, 0]⟩, ⟨-625, 10000, [0, 0, 0, 1]⟩, ⟨625, 10000, [0, 0, 1, 0]⟩, ⟨-625, 10000, [0, 0, 1, 1]⟩, ⟨-625, 10000, [0, 1, 0, 0]⟩, ⟨625, 10000, [0, 1, 0, 1]⟩, ⟨-625, 10000, [0, 1, 1, 0]⟩, ⟨625, 10000, [0, 1, 1, 1]⟩, ⟨625, 10000, [1, 0, 0, 0]⟩, ⟨-625, 10000, [1, 0, 0, 1]⟩, ⟨625, 10000, [1, 0, 1, 0]⟩, ⟨-625, 10000, [1, 0, 1, 1]⟩, ⟨-625, 10000, [1, 1, 0, 0]⟩, ⟨625, 10000, [1, 1, 0, 1]⟩, ⟨-625, 10000, [1, 1, 1, 0]⟩, ⟨625, 10000, [1, 1, 1, 1]⟩],
  [⟨625, 10000, [0, 0, 0, 0]⟩, ⟨-625, 10000, [0, 0, 0, 1]⟩, ⟨625, 10000, [0, 0, 1, 0]⟩, ⟨-625, 10000, [0, 0, 1, 1]⟩, ⟨625, 10000, [0, 1, 0, 0]⟩, ⟨-625, 10000, [0, 1, 0, 1]⟩, ⟨625, 10000, [0, 1, 1, 0]⟩, ⟨-625, 10000, [0, 1, 1, 1]⟩, ⟨-625, 10000, [1, 0, 0, 0]⟩, ⟨625, 10000, [1, 0, 0, 1]⟩, ⟨-625, 10000, [1, 0, 1, 0]⟩, ⟨625, 10000, [1, 0, 1, 1]⟩, ⟨-625, 10000, [1, 1, 0, 0]⟩, ⟨625, 10000, [1, 1, 0, 1]⟩, ⟨-625, 10000, [1, 1, 1, 0]⟩, ⟨625, 10000, [1, 1, 1, 1]⟩],
  [⟨625, 10000, [0, 0, 0, 0]⟩, ⟨-625, 10000, [0, 0, 0, 1]⟩, ⟨625, 10000, [0, 0, 1, 0]⟩, ⟨-625, 10000, [0, 0, 1, 1]⟩, ⟨625, 10000, [0, 1, 0, 0]⟩, ⟨-625, 10000, [0, 1, 0, 1]⟩, ⟨625, 10000, [0, 1, 1, 0]⟩, ⟨-625, 10000, [0, 1, 1, 1]⟩, ⟨625, 10000, [1, 0, 0, 0]⟩, ⟨-625, 10000, [1, 0, 0, 1]⟩, ⟨625, 10000, [1, 0, 1, 0]⟩, ⟨-625, 10000, [1, 0, 1, 1]⟩, ⟨625, 10000, [1, 1, 0, 0]⟩, ⟨-625, 10000, [1, 1, 0, 1]⟩, ⟨625, 10000, [1, 1, 1, 0]⟩, ⟨-625, 10000, [1, 1, 1, 1]⟩],
  [⟨625, 10000, [0, 0, 0, 0]⟩, ⟨625, 10000, [0, 0, 0, 1]⟩, ⟨-625, 10000, [0, 0, 1, 0]⟩, ⟨-625, 10000, [0, 0, 1, 1]⟩, ⟨-625, 10000, [0, 1, 0, 0]⟩, ⟨-625, 10000, [0, 1, 0, 1]⟩, ⟨625, 10000, [0, 1, 1, 0]⟩, ⟨625, 10000, [0, 1, 1, 1]⟩, ⟨-625, 10000, [1, 0, 0, 0]⟩, ⟨-625, 10000, [1, 0, 0, 1]⟩, ⟨625, 10000, [1, 0, 1, 0]⟩, ⟨625, 10000, [1, 0, 1, 1]⟩, ⟨625, 10000, [1, 1, 0, 0]⟩, ⟨625, 10000, [1, 1, 0, 1]⟩, ⟨-625, 10000, [1, 1, 1, 0]⟩, ⟨-625, 10000, [1, 1, 1, 1]⟩],
  [⟨625, 10000, [0, 0, 0, 0]⟩, ⟨625, 10000, [0, 0, 0, 1]⟩, ⟨-625, 10000, [0, 0, 1, 0]⟩, ⟨-625, 10000, [0, 0, 1, 1]⟩, ⟨-625, 10000, [0, 1, 0, 0]⟩, ⟨-625, 10000, [0, 1, 0, 1]⟩, ⟨625, 10000, [0, 1, 1, 0]⟩, ⟨625, 10000, [0, 1, 1, 1]⟩, ⟨625, 10000, [1, 0, 0, 0]⟩, ⟨625, 10000, [1, 0, 0, 1]⟩, ⟨-625, 10000, [1, 0, 1, 0]⟩, ⟨-625, 10000, [1, 0, 1, 1]⟩, ⟨-625, 10000, [1, 1, 0, 0]⟩, ⟨-625, 10000, [1, 1, 0, 1]⟩, ⟨625, 10000, [1, 1, 1, 0]⟩, ⟨625, 10000, [1, 1, 1, 1]⟩],
  [⟨625, 10000, [0, 0, 0, 0]⟩, ⟨625, 10000, [0, 0, 0, 1]⟩, ⟨-625, 10000, [0, 0, 1, 0]⟩, ⟨-625, 10000, [0, 0, 1, 1]⟩, ⟨625, 10000, [0, 1, 0, 0]⟩, ⟨625, 10000, [0, 1, 0, 1]⟩, ⟨-625, 10000, [0, 1, 1, 0]⟩, ⟨-625, 10000, [0, 1, 1, 1]⟩, ⟨-625, 10000, [1, 0, 0, 0]⟩, ⟨-625, 10000, [1, 0, 0, 1]⟩, ⟨625, 10000, [1, 0, 1, 0]⟩, ⟨625, 10000, [1, 0, 1, 1]⟩, ⟨-625, 10000, [1, 1, 0, 0]⟩, ⟨-625, 10000, [1, 1, 0, 1]⟩, ⟨625, 10000, [1, 1, 1, 0]⟩, ⟨625, 10000, [1, 1, 1, 1]⟩],
  [⟨625, 10000, [0, 0, 0, 0]⟩, ⟨625, 10000, [0, 0, 0, 1]⟩, ⟨-625, 10000, [0, 0, 1, 0]⟩, ⟨-625, 10000, [0, 0, 1, 1]⟩, ⟨625, 10000, [0, 1, 0, 0]⟩, ⟨625, 10000, [0, 1, 0, 1]⟩, ⟨-625, 10000, [0, 1, 1, 0]⟩, ⟨-625, 10000, [0, 1, 1, 1]⟩, ⟨625, 10000, [1, 0, 0, 0]⟩, ⟨625, 10000, [1, 0, 0, 1]⟩, ⟨-625, 10000, [1, 0, 1, 0]⟩, ⟨-625, 10000, [1, 0, 1, 1]⟩, ⟨625, 10000, [1, 1, 0, 0]⟩, ⟨625, 10000, [1, 1, 0, 1]⟩, ⟨-625, 10000, [1, 1, 1, 0]⟩, ⟨-625, 10000, [1, 1, 1, 1]⟩],
  [⟨625, 10000, [0, 0, 0, 0]⟩, ⟨625, 10000, [0, 0, 0, 1]⟩, ⟨625, 10000, [0, 0, 1, 0]⟩, ⟨625, 10000, [0, 0, 1, 1]⟩, ⟨-625, 10000, [0, 1, 0, 0]⟩, ⟨-625, 10000, [0, 1, 0, 1]⟩, ⟨-625, 10000, [0, 1, 1, 0]⟩, ⟨-625, 10000, [0, 1, 1, 1]⟩, ⟨-625, 10000, [1, 0, 0, 0]⟩, ⟨-625, 10000, [1, 0, 0, 1]⟩, ⟨-625, 10000, [1, 0, 1, 0]⟩, ⟨-625, 10000, [1, 0, 1, 1]⟩, ⟨625, 10000, [1, 1, 0, 0]⟩, ⟨625, 10000, [1, 1, 0, 1]⟩, ⟨625, 10000, [1, 1, 1, 0]⟩, ⟨625, 10000, [1, 1, 1, 1]⟩],
  [⟨625, 10000, [0, 0, 0, 0]⟩, ⟨625, 10000, [0, 0, 0, 1]⟩, ⟨625, 10000, [0, 0, 1, 0]⟩, ⟨625, 10000, [0, 0, 1, 1]⟩, ⟨-625, 10000, [0, 1, 0, 0]⟩, ⟨-625, 10000, [0, 1, 0, 1]⟩, ⟨-625, 10000, [0, 1, 1, 0]⟩, ⟨-625, 10000, [0, 1, 1, 1]⟩, ⟨625, 10000, [1, 0, 0, 0]⟩, ⟨625, 10000, [1, 0, 0, 1]⟩, ⟨625, 10000, [1, 0, 1, 0]⟩, ⟨625, 10000, [1, 0, 1, 1]⟩, ⟨-625, 10000, [1, 1, 0, 0]⟩, ⟨-625, 10000, [1, 1, 0, 1]⟩, ⟨-625, 10000, [1, 1, 1, 0]⟩, ⟨-625, 10000, [1, 1, 1, 1]⟩],
  [⟨625, 10000, [0, 0, 0, 0]⟩, ⟨625, 10000, [0, 0, 0, 1]⟩, ⟨625, 10000, [0, 0, 1, 0]⟩, ⟨625, 10000, [0, 0, 1, 1]⟩, ⟨625, 10000, [0, 1, 0, 0]⟩, ⟨625, 10000, [0, 1, 0, 1]⟩, ⟨625, 10000, [0, 1, 1, 0]⟩, ⟨625, 10000, [0, 1, 1, 1]⟩, ⟨-625, 10000, [1, 0, 0, 0]⟩, ⟨-625, 10000, [1, 0, 0, 1]⟩, ⟨-625, 10000, [1, 0, 1, 0]⟩, ⟨-625, 10000, [1, 0, 1, 1]⟩, ⟨-625, 10000, [1, 1, 0, 0]⟩, ⟨-625, 10000, [1, 1, 0, 1]⟩, ⟨-625, 10000, [1, 1, 1, 0]⟩, ⟨-625, 10000, [1, 1, 1, 1]⟩],
  [⟨625, 10000, [0, 0, 0, 0]⟩, ⟨625, 10000, [0, 0, 0, 1]⟩, ⟨625, 10000, [0, 0, 1, 0]⟩, ⟨625, 10000, [0, 0, 1, 1]⟩, ⟨625, 10000, [0, 1, 0, 0]⟩, ⟨625, 10000, [0, 1, 0, 1]⟩, ⟨625, 10000, [0, 1, 1, 0]⟩, ⟨625, 10000, [0, 1, 1, 1]⟩, ⟨625, 10000, [1, 0, 0, 0]⟩, ⟨625, 10000, [1, 0, 0, 1]⟩, ⟨625, 10000, [1, 0, 1, 0]⟩, ⟨625, 10000, [1, 0, 1, 1]⟩, ⟨625, 10000, [1, 1, 0, 0]⟩, ⟨625, 10000, [1, 1, 0, 1]⟩, ⟨625, 10000, [1, 1, 1, 0]⟩, ⟨625, 10000, [1, 1, 1, 1]⟩]]

/-- computeInterpolationMatrices.py:3863-5178. -/
def nodalSer4p2 : List Poly := [
  [⟨-1875, 10000, [0, 0, 0, 0]⟩, ⟨125, 1000, [0, 0, 0, 1]⟩, ⟨625, 10000, [0, 0, 0, 2]⟩, ⟨125, 1000, [0, 0, 1, 0]⟩, ⟨-625, 10000, [0, 0, 1, 1]⟩, ⟨-625, 10000, [0, 0, 1, 2]⟩, ⟨625, 10000, [0, 0, 2, 0]⟩, ⟨-625, 10000, [0, 0, 2, 1]⟩, ⟨125, 1000, [0, 1, 0, 0]⟩, ⟨-625, 10000, [0, 1, 0, 1]⟩, ⟨-625, 10000, [0, 1, 0, 2]⟩, ⟨-625, 10000, [0, 1, 1, 0]⟩, ⟨625, 10000, [0, 1, 1, 2]⟩, ⟨-625, 10000, [0, 1, 2, 0]⟩, ⟨625, 10000, [0, 1, 2, 1]⟩, ⟨625, 10000, [0, 2, 0, 0]⟩, ⟨-625, 10000, [0, 2, 0, 1]⟩, ⟨-625, 10000, [0, 2, 1, 0]⟩, ⟨625, 10000, [0, 2, 1, 1]⟩, ⟨125, 1000, [1, 0, 0, 0]⟩, ⟨-625, 10000, [1, 0, 0, 1]⟩, ⟨-625, 10000, [1, 0, 0, 2]⟩, ⟨-625, 10000, [1, 0, 1, 0]⟩, ⟨625, 10000, [1, 0, 1, 2]⟩, ⟨-625, 10000, [1, 0, 2, 0]⟩, ⟨625, 10000, [1, 0, 2, 1]⟩, ⟨-625, 10000, [1, 1, 0, 0]⟩, ⟨625, 10000, [1, 1, 0, 2]⟩, ⟨625, 10000, [1, 1, 1, 1]⟩, ⟨-625, 10000, [1, 1, 1, 2]⟩, ⟨625, 10000, [1, 1, 2, 0]⟩, ⟨-625, 10000, [1, 1, 2, 1]⟩, ⟨-625, 10000, [1, 2, 0, 0]⟩, ⟨625, 10000, [1, 2, 0, 1]⟩, ⟨625, 10000, [1, 2, 1, 0]⟩, ⟨-625, 10000, [1, 2, 1, 1]⟩, ⟨625, 10000, [2, 0, 0, 0]⟩, ⟨-625, 10000, [2, 0, 0, 1]⟩, ⟨-625, 10000, [2, 0, 1, 0]⟩, ⟨625, 10000, [2, 0, 1, 1]⟩, ⟨-625, 10000, [2, 1, 0, 0]⟩, ⟨625, 10000, [2, 1, 0, 1]⟩, ⟨625, 10000, [2, 1, 1, 0]⟩, ⟨-625, 10000, [2, 1, 1, 1]⟩],
  [⟨125, 1000, [0, 0, 0, 0]⟩, ⟨-125, 1000, [0, 0, 0, 1]⟩, ⟨-125, 1000, [0, 0, 1, 0]⟩, ⟨125, 1000, [0, 0, 1, 1]⟩, ⟨-125, 1000, [0, 1, 0, 0]⟩, ⟨125, 1000, [0, 1, 0, 1]⟩, ⟨125, 1000, [0, 1, 1, 0]⟩, ⟨-125, 1000, [0, 1, 1, 1]⟩, ⟨-125, 1000, [2, 0, 0, 0]⟩, ⟨125, 1000, [2, 0, 0, 1]⟩, ⟨125, 1000, [2, 0, 1, 0]⟩, ⟨-125, 1000, [2, 0, 1, 1]⟩, ⟨125, 1000, [2, 1, 0, 0]⟩, ⟨-125, 1000, [2, 1, 0, 1]⟩, ⟨-125, 1000, [2, 1, 1, 0]⟩, ⟨125, 1000, [2, 1, 1, 1]⟩],
  [⟨-1875, 10000, [0, 0, 0, 0]⟩, ⟨125, 1000, [0, 0, 0, 1]⟩, ⟨625, 10000, [0, 0, 0, 2]⟩, ⟨125, 1000, [0, 0, 1, 0]⟩, ⟨-625, 10000, [0, 0, 1, 1]⟩, ⟨-625, 10000, [0, 0, 1, 2]⟩, ⟨625, 10000, [0, 0, 2, 0]⟩, ⟨-625, 10000, [0, 0, 2, 1]⟩, ⟨125, 1000, [0, 1, 0, 0]⟩, ⟨-625, 10000, [0, 1, 0, 1]⟩, ⟨-625, 10000, [0, 1, 0, 2]⟩, ⟨-625, 10000, [0, 1, 1, 0]⟩, ⟨625, 10000, [0, 1, 1, 2]⟩, ⟨-625, 10000, [0, 1, 2, 0]⟩, ⟨625, 10000, [0, 1, 2, 1]⟩, ⟨625, 10000, [0, 2, 0, 0]⟩, ⟨-625, 10000, [0, 2, 0, 1]⟩, ⟨-625, 10000, [0, 2, 1, 0]⟩, ⟨625, 10000, [0, 2, 1, 1]⟩, ⟨-125, 1000, [1, 0, 0, 0]⟩, ⟨625, 10000, [1, 0, 0, 1]⟩, ⟨625, 10000, [1, 0, 0, 2]⟩, ⟨625, 10000, [1, 0, 1, 0]⟩, ⟨-625, 10000, [1, 0, 1, 2]⟩, ⟨625, 10000, [1, 0, 2, 0]⟩, ⟨-625, 10000, [1, 0, 2, 1]⟩, ⟨625, 10000, [1, 1, 0, 0]⟩, ⟨-625, 10000, [1, 1, 0, 2]⟩, ⟨-625, 10000, [1, 1, 1, 1]⟩, ⟨625, 10000, [1, 1, 1, 2]⟩, ⟨-625, 10000, [1, 1, 2, 0]⟩, ⟨625, 10000, [1, 1, 2, 1]⟩, ⟨625, 10000, [1, 2, 0, 0]⟩, ⟨-625, 10000, [1, 2, 0, 1]⟩, ⟨-625, 10000, [1, 2, 1, 0]⟩, ⟨625, 10000, [1, 2, 1, 1]⟩, ⟨625, 10000, [2, 0, 0, 0]⟩, ⟨-625, 10000, [2, 0, 0, 1]⟩, ⟨-625, 10000, [2, 0, 1, 0]⟩, ⟨625, 10000, [2, 0, 1, 1]⟩, ⟨-625, 10000, [2, 1, 0, 0]⟩, ⟨625, 10000, [2, 1, 0, 1]⟩, ⟨625, 10000, [2, 1, 1, 0]⟩, ⟨-625, 10000, [2, 1, 1, 1]⟩],
  [⟨125, 1000, [0, 0, 0, 0]⟩, ⟨-125, 1000, [0, 0, 0, 1]⟩, ⟨-125, 1000, [0, 0, 1, 0]⟩, ⟨125, 1000, [0, 0, 1, 1]⟩, ⟨-125, 1000, [0, 2, 0, 0]⟩, ⟨125, 1000, [0, 2, 0, 1]⟩, ⟨125, 1000, [0, 2, 1, 0]⟩, ⟨-125, 1000, [0, 2, 1, 1]⟩, ⟨-125, 1000, [1, 0, 0, 0]⟩, ⟨125, 1000, [1, 0, 0, 1]⟩, ⟨125, 1000, [1, 0, 1, 0]⟩, ⟨-125, 1000, [1, 0, 1, 1]⟩, ⟨125, 1000, [1, 2, 0, 0]⟩, ⟨-125, 1000, [1, 2, 0, 1]⟩, ⟨-125, 1000, [1, 2, 1, 0]⟩, ⟨125, 1000, [1, 2, 1, 1]⟩],
  [⟨125, 1000, [0, 0, 0, 0]⟩, ⟨-125, 1000, [0, 0, 0, 1]⟩, ⟨-125, 1000, [0, 0, 1, 0]⟩, ⟨125, 1000, [0, 0, 1, 1]⟩, ⟨-125, 1000, [0, 2, 0, 0]⟩, ⟨125, 1000, [0, 2, 0, 1]⟩, ⟨125, 1000, [0, 2, 1, 0]⟩, ⟨-125, 1000, [0, 2, 1, 1]⟩, ⟨125, 1000, [1, 0, 0, 0]⟩, ⟨-125, 1000, [1, 0, 0, 1]⟩, ⟨-125, 1000, [1, 0, 1, 0]⟩, ⟨125, 1000, [1, 0, 1, 1]⟩, ⟨-125, 1000, [1, 2, 0, 0]⟩, ⟨125, 1000, [1, 2, 0, 1]⟩, ⟨125, 1000, [1, 2, 1, 0]⟩, ⟨-125, 1000, [1, 2, 1, 1]⟩],
  [⟨-1875, 10000, [0, 0, 0, 0]⟩, ⟨125, 1000, [0, 0, 0, 1]⟩, ⟨625, 10000, [0, 0, 0, 2]⟩, ⟨125, 1000, [0, 0, 1, 0]⟩, ⟨-625, 10000, [0, 0, 1, 1]⟩, ⟨-625, 10000, [0, 0, 1, 2]⟩, ⟨625, 10000, [0, 0, 2, 0]⟩, ⟨-625, 10000, [0, 0, 2, 1]⟩, ⟨-125, 1000, [0, 1, 0, 0]⟩, ⟨625, 10000, [0, 1, 0, 1]⟩, ⟨625, 10000, [0, 1, 0, 2]⟩, ⟨625, 10000, [0, 1, 1, 0]⟩, ⟨-625, 10000, [0, 1, 1, 2]⟩, ⟨625, 10000, [0, 1, 2, 0]⟩, ⟨-625, 10000, [0, 1, 2, 1]⟩, ⟨625, 10000, [0, 2, 0, 0]⟩, ⟨-625, 10000, [0, 2, 0, 1]⟩, ⟨-625, 10000, [0, 2, 1, 0]⟩, ⟨625, 10000, [0, 2, 1, 1]⟩, ⟨125, 1000, [1, 0, 0, 0]⟩, ⟨-625, 10000, [1, 0, 0, 1]⟩, ⟨-625, 10000, [1, 0, 0, 2]⟩, ⟨-625, 10000, [1, 0, 1, 0]⟩, ⟨625, 10000, [1, 0, 1, 2]⟩, ⟨-625, 10000, [1, 0, 2, 0]⟩, ⟨625, 10000, [1, 0, 2, 1]⟩, ⟨625, 10000, [1, 1, 0, 0]⟩, ⟨-625, 10000, [1, 1, 0, 2]⟩, ⟨-625, 10000, [1, 1, 1, 1]⟩, ⟨625, 10000, [1, 1, 1, 2]⟩, ⟨-625, 10000, [1, 1, 2, 0]⟩, ⟨625, 10000, [1, 1, 2, 1]⟩, ⟨-625, 10000, [1, 2, 0, 0]⟩, ⟨625, 10000, [1, 2, 0, 1]⟩, ⟨625, 10000, [1, 2, 1, 0]⟩, ⟨-625, 10000, [1, 2, 1, 1]⟩, ⟨625, 10000, [2, 0, 0, 0]⟩, ⟨-625, 10000, [2, 0, 0, 1]⟩, ⟨-625, 10000, [2, 0, 1, 0]⟩, ⟨625, 10000, [2, 0, 1, 1]⟩, ⟨625, 10000, [2, 1, 0, 0]⟩, ⟨-625, 10000, [2, 1, 0, 1]⟩, ⟨-625, 10000, [2, 1, 1, 0]⟩, ⟨625, 10000, [2, 1, 1, 1]⟩],
  [⟨125, 1000, [0, 0, 0, 0]⟩, ⟨-125, 1000, [0, 0, 0, 1]⟩, ⟨-125, 1000, [0, 0, 1, 0]⟩, ⟨125, 1000, [0, 0, 1, 1]⟩, ⟨125, 1000, [0, 1, 0, 0]⟩, ⟨-125, 1000, [0, 1, 0, 1]⟩, ⟨-125, 1000, [0, 1, 1, 0]⟩, ⟨125, 1000, [0, 1, 1, 1]⟩, ⟨-125, 1000, [2, 0, 0, 0]⟩, ⟨125, 1000, [2, 0, 0, 1]⟩, ⟨125, 1000, [2, 0, 1, 0]⟩, ⟨-125, 1000, [2, 0, 1, 1]⟩, ⟨-125, 1000, [2, 1, 0, 0]⟩, ⟨125, 1000, [2, 1, 0, 1]⟩, ⟨125, 1000, [2, 1, 1, 0]⟩, ⟨-125, 1000, [2, 1, 1, 1]⟩],
  [⟨-1875, 10000, [0, 0, 0, 0]⟩, ⟨125, 1000, [0, 0, 0, 1]⟩, ⟨625, 10000, [0, 0, 0, 2]⟩, ⟨125, 1000, [0, 0, 1, 0]⟩, ⟨-625, 10000, [0, 0, 1, 1]⟩, ⟨-625, 10000, [0, 0, 1, 2]⟩, ⟨625, 10000, [0, 0, 2, 0]⟩, ⟨-625, 10000, [0, 0, 2, 1]⟩, ⟨-125, 1000, [0, 1, 0, 0]⟩, ⟨625, 10000, [0, 1, 0, 1]⟩, ⟨625, 10000, [0, 1, 0, 2]⟩, ⟨625, 10000, [0, 1, 1, 0]⟩, ⟨-625, 10000, [0, 1, 1, 2]⟩, ⟨625, 10000, [0, 1, 2, 0]⟩, ⟨-625, 10000, [0, 1, 2, 1]⟩, ⟨625, 10000, [0, 2, 0, 0]⟩, ⟨-625, 10000, [0, 2, 0, 1]⟩, ⟨-625, 10000, [0, 2, 1, 0]⟩, ⟨625, 10000, [0, 2, 1, 1]⟩, ⟨-125, 1000, [1, 0, 0, 0]⟩, ⟨625, 10000, [1, 0, 0, 1]⟩, ⟨625, 10000, [1, 0, 0, 2]⟩, ⟨625, 10000, [1, 0, 1, 0]⟩, ⟨-625, 10000, [1, 0, 1, 2]⟩, ⟨625, 10000, [1, 0, 2, 0]⟩, ⟨-625, 10000, [1, 0, 2, 1]⟩, ⟨-625, 10000, [1, 1, 0, 0]⟩, ⟨625, 10000, [1, 1, 0, 2]⟩, ⟨625, 10000, [1, 1, 1, 1]⟩, ⟨-625, 10000, [1, 1, 1, 2]⟩, ⟨625, 10000, [1, 1, 2, 0]⟩, ⟨-625, 10000, [1, 1, 2, 1]⟩, ⟨625, 10000, [1, 2, 0, 0]⟩, ⟨-625, 10000, [1, 2, 0, 1]⟩, ⟨-625, 10000, [1, 2, 1, 0]⟩, ⟨625, 10000, [1, 2, 1, 1]⟩, ⟨625, 10000, [2, 0, 0, 0]⟩, ⟨-625, 10000, [2, 0, 0, 1]⟩, ⟨-625, 10000, [2, 0, 1, 0]⟩, ⟨625, 10000, [2, 0, 1, 1]⟩, ⟨625, 10000, [2, 1, 0, 0]⟩, ⟨-625, 10000, [2, 1, 0, 1]⟩, ⟨-625, 10000, [2, 1, 1, 0]⟩, ⟨625, 10000, [2, 1, 1, 1]⟩],
  [⟨125, 1000, [0, 0, 0, 0]⟩, ⟨-125, 1000, [0, 0, 0, 1]⟩, ⟨-125, 1000, [0, 0, 2, 0]⟩, ⟨125, 1000, [0, 0, 2, 1]⟩, ⟨-125, 1000, [0, 1, 0, 0]⟩, ⟨125, 1000, [0, 1, 0, 1]⟩, ⟨125, 1000, [0, 1, 2, 0]⟩, ⟨-125, 1000, [0, 1, 2, 1]⟩, ⟨-125, 1000, [1, 0, 0, 0]⟩, ⟨125, 1000, [1, 0, 0, 1]⟩, ⟨125, 1000, [1, 0, 2, 0]⟩, ⟨-125, 1000, [1, 0, 2, 1]⟩, ⟨125, 1000, [1, 1, 0, 0]⟩, ⟨-125, 1000, [1, 1, 0, 1]⟩, ⟨-125, 1000, [1, 1, 2, 0]⟩, ⟨125, 1000, [1, 1, 2, 1]⟩],
  [⟨125, 1000, [0, 0, 0, 0]⟩, ⟨-125, 1000, [0, 0, 0, 1]⟩, ⟨-125, 1000, [0, 0, 2, 0]⟩, ⟨125, 1000, [0, 0, 2, 1]⟩, ⟨-125, 1000, [0, 1, 0, 0]⟩, ⟨125, 1000, [0, 1, 0, 1]⟩, ⟨125, 1000, [0, 1, 2, 0]⟩, ⟨-125, 1000, [0, 1, 2, 1]⟩, ⟨125, 1000, [1, 0, 0, 0]⟩, ⟨-125, 1000, [1, 0, 0, 1]⟩, ⟨-125, 1000, [1, 0, 2, 0]⟩, ⟨125, 1000, [1, 0, 2, 1]⟩, ⟨-125, 1000, [1, 1, 0, 0]⟩, ⟨125, 1000, [1, 1, 0, 1]⟩, ⟨125, 1000, [1, 1, 2, 0]⟩, ⟨-125, 1000, [1, 1, 2, 1]⟩],
  [⟨125, 1000, [0, 0, 0, 0]⟩, ⟨-125, 1000, [0, 0, 0, 1]⟩, ⟨-125, 1000, [0, 0, 2, 0]⟩, ⟨125, 1000, [0, 0, 2, 1]⟩, ⟨125, 1000, [0, 1, 0, 0]⟩, ⟨-125, 1000, [0, 1, 0, 1]⟩, ⟨-125, 1000, [0, 1, 2, 0]⟩, ⟨125, 1000, [0, 1, 2, 1]⟩, ⟨-125, 1000, [1, 0, 0, 0]⟩, ⟨125, 1000, [1, 0, 0, 1]⟩, ⟨125, 1000, [1, 0, 2, 0]⟩, ⟨-125, 1000, [1, 0, 2, 1]⟩, ⟨-125, 1000, [1, 1, 0, 0]⟩, ⟨125, 1000, [1, 1, 0, 1]⟩, ⟨125, 1000, [1, 1, 2, 0]⟩, ⟨-125, 1000, [1, 1, 2, 1]⟩],
  [⟨125, 1000, [0, 0, 0, 0]⟩, ⟨-125, 1000, [0, 0, 0, 1]⟩, ⟨-125, 1000, [0, 0, 2, 0]⟩, ⟨125, 1000, [0, 0, 2, 1]⟩, ⟨125, 1000, [0, 1, 0, 0]⟩, ⟨-125, 1000, [0, 1, 0, 1]⟩, ⟨-125, 1000, [0, 1, 2, 0]⟩, ⟨125, 1000, [0, 1, 2, 1]⟩, ⟨125, 1000, [1, 0, 0, 0]⟩, ⟨-125, 1000, [1, 0, 0, 1]⟩, ⟨-125, 1000, [1, 0, 2, 0]⟩, ⟨125, 1000, [1, 0, 2, 1]⟩, ⟨125, 1000, [1, 1, 0, 0]⟩, ⟨-125, 1000, [1, 1, 0, 1]⟩, ⟨-125, 1000, [1, 1, 2, 0]⟩, ⟨125, 1000, [1, 1, 2, 1]⟩],
  [⟨-1875, 10000, [0, 0, 0, 0]⟩, ⟨125, 1000, [0, 0, 0, 1]⟩, ⟨625, 10000, [0, 0, 0, 2]⟩, ⟨-125, 1000, [0, 0, 1, 0]⟩, ⟨625, 10000, [0, 0, 1, 1]⟩, ⟨625, 10000, [0, 0, 1, 2]⟩, ⟨625, 10000, [0, 0, 2, 0]⟩, ⟨-625, 10000, [0, 0, 2, 1]⟩, ⟨125, 1000, [0, 1, 0, 0]⟩, ⟨-625, 10000, [0, 1, 0, 1]⟩, ⟨-625, 10000, [0, 1, 0, 2]⟩, ⟨625, 10000, [0, 1, 1, 0]⟩, ⟨-625, 10000, [0, 1, 1, 2]⟩, ⟨-625, 10000, [0, 1, 2, 0]⟩, ⟨625, 10000, [0, 1, 2, 1]⟩, ⟨625, 10000, [0, 2, 0, 0]⟩, ⟨-625, 10000, [0, 2, 0, 1]⟩, ⟨625, 10000, [0, 2, 1, 0]⟩, ⟨-625, 10000, [0, 2, 1, 1]⟩, ⟨125, 1000, [1, 0, 0, 0]⟩, ⟨-625, 10000, [1, 0, 0, 1]⟩, ⟨-625, 10000, [1, 0, 0, 2]⟩, ⟨625, 10000, [1, 0, 1, 0]⟩, ⟨-625, 10000, [1, 0, 1, 2]⟩, ⟨-625, 10000, [1, 0, 2, 0]⟩, ⟨625, 10000, [1, 0, 2, 1]⟩, ⟨-625, 10000, [1, 1, 0, 0]⟩, ⟨625, 10000, [1, 1, 0, 2]⟩, ⟨-625, 10000, [1, 1, 1, 1]⟩, ⟨625, 10000, [1, 1, 1, 2]⟩, ⟨625, 10000, [1, 1, 2, 0]⟩, ⟨-625, 10000, [1, 1, 2, 1]⟩, ⟨-625, 10000, [1, 2, 0, 0]⟩, ⟨625, 10000, [1, 2, 0, 1]⟩, ⟨-625, 10000, [1, 2, 1, 0]⟩, ⟨625, 10000, [1, 2, 1, 1]⟩, ⟨625, 10000, [2, 0, 0, 0]⟩, ⟨-625, 10000, [2, 0, 0, 1]⟩, ⟨625, 10000, [2, 0, 1, 0]⟩, ⟨-625, 10000, [2, 0, 1, 1]⟩, ⟨-625, 10000, [2, 1, 0, 0]⟩, ⟨625, 10000, [2, 1, 0, 1]⟩, ⟨-625, 10000, [2, 1, 1, 0]⟩, ⟨625, 10000, [2, 1, 1, 1]⟩],
  [⟨125, 1000, [0, 0, 0, 0]⟩, ⟨-125, 1000, [0, 0, 0, 1]⟩, ⟨125, 1000, [0, 0, 1, 0]⟩, ⟨-125, 1000, [0, 0, 1, 1]⟩, ⟨-125, 1000, [0, 1, 0, 0]⟩, ⟨125, 1000, [0, 1, 0, 1]⟩, ⟨-125, 1000, [0, 1, 1, 0]⟩, ⟨125, 1000, [0, 1, 1, 1]⟩, ⟨-125, 1000, [2, 0, 0, 0]⟩, ⟨125, 1000, [2, 0, 0, 1]⟩, ⟨-125, 1000, [2, 0, 1, 0]⟩, ⟨125, 1000, [2, 0, 1, 1]⟩, ⟨125, 1000, [2, 1, 0, 0]⟩, ⟨-125, 1000, [2, 1, 0, 1]⟩, ⟨125, 1000, [2, 1, 1, 0]⟩, ⟨-125, 1000, [2, 1, 1, 1]⟩],
  [⟨-1875, 10000, [0, 0, 0, 0]⟩, ⟨125, 1000, [0, 0, 0, 1]⟩, ⟨625, 10000, [0, 0, 0, 2]⟩, ⟨-125, 1000, [0, 0, 1, 0]⟩, ⟨625, 10000, [0, 0, 1, 1]⟩, ⟨625, 10000, [0, 0, 1, 2]⟩, ⟨625, 10000, [0, 0, 2, 0]⟩, ⟨-625, 10000, [0, 0, 2, 1]⟩, ⟨125, 1000, [0, 1, 0, 0]⟩, ⟨-625, 10000, [0, 1, 0, 1]⟩, ⟨-625, 10000, [0, 1, 0, 2]⟩, ⟨625, 10000, [0, 1, 1, 0]⟩, ⟨-625, 10000, [0, 1, 1, 2]⟩, ⟨-625, 10000, [0, 1, 2, 0]⟩, ⟨625, 10000, [0, 1, 2, 1]⟩, ⟨625, 10000, [0, 2, 0, 0]⟩, ⟨-625, 10000, [0, 2, 0, 1]⟩, ⟨625, 10000, [0, 2, 1, 0]⟩, ⟨-625, 10000, [0, 2, 1, 1]⟩, ⟨-125, 1000, [1, 0, 0, 0]⟩, ⟨625, 10000, [1, 0, 0, 1]⟩, ⟨625, 10000, [1, 0, 0, 2]⟩, ⟨-625, 10000, [1, 0, 1, 0]⟩, ⟨625, 10000, [1, 0, 1, 2]⟩, ⟨625, 10000, [1, 0, 2, 0]⟩, ⟨-625, 10000, [1, 0, 2, 1]⟩, ⟨625, 10000, [1, 1, 0, 0]⟩, ⟨-625, 10000, [1, 1, 0, 2]⟩, ⟨625, 10000, [1, 1, 1, 1]⟩, ⟨-625, 10000, [1, 1, 1, 2]⟩, ⟨-625, 10000, [1, 1, 2, 0]⟩, ⟨625, 10000, [1, 1, 2, 1]⟩, ⟨625, 10000, [1, 2, 0, 0]⟩, ⟨-625, 10000, [1, 2, 0, 1]⟩, ⟨625, 10000, [1, 2, 1, 0]⟩, ⟨-625, 10000, [1, 2, 1, 1]⟩, ⟨625, 10000, [2, 0, 0, 0]⟩, ⟨-625, 10000, [2, 0, 0, 1]⟩, ⟨625, 10000, [2, 0, 1, 0]⟩, ⟨-625, 10000, [2, 0, 1, 1]⟩, ⟨-625, 10000, [2, 1, 0, 0]⟩, ⟨625, 10000, [2, 1, 0, 1]⟩, ⟨-625, 10000, [2, 1, 1, 0]⟩, ⟨625, 10000, [2, 1, 1, 1]⟩],
  [⟨125, 1000, [0, 0, 0, 0]⟩, ⟨-125, 1000, [0, 0, 0, 1]⟩, ⟨125, 1000, [0, 0, 1, 0]⟩, ⟨-125, 1000, [0, 0, 1, 1]⟩, ⟨-125, 1000, [0, 2, 0, 0]⟩, ⟨125, 1000, [0, 2, 0, 1]⟩, ⟨-125, 1000, [0, 2, 1, 0]⟩, ⟨125, 1000, [0, 2, 1, 1]⟩, ⟨-125, 1000, [1, 0, 0, 0]⟩, ⟨125, 1000, [1, 0, 0, 1]⟩, ⟨-125, 1000, [1, 0, 1, 0]⟩, ⟨125, 1000, [1, 0, 1, 1]⟩, ⟨125, 1000, [1, 2, 0, 0]⟩, ⟨-125, 1000, [1, 2, 0, 1]⟩, ⟨125, 1000, [1, 2, 1, 0]⟩, ⟨-125, 1000, [1, 2, 1, 1]⟩],
  [⟨125, 1000, [0, 0, 0, 0]⟩, ⟨-125, 1000, [0, 0, 0, 1]⟩, ⟨125, 1000, [0, 0, 1, 0]⟩, ⟨-125, 1000, [0, 0, 1, 1]⟩, ⟨-125, 1000, [0, 2, 0, 0]⟩, ⟨125, 1000, [0, 2, 0, 1]⟩, ⟨-125, 1000, [0, 2, 1, 0]⟩, ⟨125, 1000, [0, 2, 1, 1]⟩, ⟨125, 1000, [1, 0, 0, 0]⟩, ⟨-125, 1000, [1, 0, 0, 1]⟩, ⟨125, 1000, [1, 0, 1, 0]⟩, ⟨-125, 1000, [1, 0, 1, 1]⟩, ⟨-125, 1000, [1, 2, 0, 0]⟩, ⟨125, 1000, [1, 2, 0, 1]⟩, ⟨-125, 1000, [1, 2, 1, 0]⟩, ⟨125, 1000, [1, 2, 1, 1]⟩],
  [⟨-1875, 10000, [0, 0, 0, 0]⟩, ⟨125, 1000, [0, 0, 0, 1]⟩, ⟨625, 10000, [0, 0, 0, 2]⟩, ⟨-125, 1000, [0, 0, 1, 0]⟩, ⟨625, 10000, [0, 0, 1, 1]⟩, ⟨625, 10000, [0, 0, 1, 2]⟩, ⟨625, 10000, [0, 0, 2, 0]⟩, ⟨-625, 10000, [0, 0, 2, 1]⟩, ⟨-125, 1000, [0, 1, 0, 0]⟩, ⟨625, 10000, [0, 1, 0, 1]⟩, ⟨625, 10000, [0, 1, 0, 2]⟩, ⟨-625, 10000, [0, 1, 1, 0]⟩, ⟨625, 10000, [0, 1, 1, 2]⟩, ⟨625, 10000, [0, 1, 2, 0]⟩, ⟨-625, 10000, [0, 1, 2, 1]⟩, ⟨625, 10000, [0, 2, 0, 0]⟩, ⟨-625, 10000, [0, 2, 0, 1]⟩, ⟨625, 10000, [0, 2, 1, 0]⟩, ⟨-625, 10000, [0, 2, 1, 1]⟩, ⟨125, 1000, [1, 0, 0, 0]⟩, ⟨-625, 10000, [1, 0, 0, 1]⟩, ⟨-625, 10000, [1, 0, 0, 2]⟩, ⟨625, 10000, [1, 0, 1, 0]⟩, ⟨-625, 10000, [1, 0, 1, 2]⟩, ⟨-625, 10000, [1, 0, 2, 0]⟩, ⟨625, 10000, [1, 0, 2, 1]⟩, ⟨625, 10000, [1, 1, 0, 0]⟩, ⟨-625, 10000, [1, 1, 0, 2]⟩, ⟨625, 10000, [1, 1, 1, 1]⟩, ⟨-625, 10000, [1, 1, 1, 2]⟩, ⟨-625, 10000, [1, 1, 2, 0]⟩, ⟨625, 10000, [1, 1, 2, 1]⟩, ⟨-625, 10000, [1, 2, 0, 0]⟩, ⟨625, 10000, [1, 2, 0, 1]⟩, ⟨-625, 10000, [1, 2, 1, 0]⟩, ⟨625, 10000, [1, 2, 1, 1]⟩, ⟨625, 10000, [2, 0, 0, 0]⟩, ⟨-625, 10000, [2, 0, 0, 1]⟩, ⟨625, 10000, [2, 0, 1, 0]⟩, ⟨-625, 10000, [2, 0, 1, 1]⟩, ⟨625, 10000, [2, 1, 0, 0]⟩, ⟨-625, 10000, [2, 1, 0, 1]⟩, ⟨625, 10000, [2, 1, 1, 0]⟩, ⟨-625, 10000, [2, 1, 1, 1]⟩],
  [⟨125, 1000, [0, 0, 0, 0]⟩, ⟨-125, 1000, [0, 0, 0, 1]⟩, ⟨125, 1000, [0, 0, 1, 0]⟩, ⟨-125, 1000, [0, 0, 1, 1]⟩, ⟨125, 1000, [0, 1, 0, 0]⟩, ⟨-125, 1000, [0, 1, 0, 1]⟩, ⟨125, 1000, [0, 1, 1, 0]⟩, ⟨-125, 1000, [0, 1, 1, 1]⟩, ⟨-125, 1000, [2, 0, 0, 0]⟩, ⟨125, 1000, [2, 0, 0, 1]⟩, ⟨-125, 1000, [2, 0, 1, 0]⟩, ⟨125, 1000, [2, 0, 1, 1]⟩, ⟨-125, 1000, [2, 1, 0, 0]⟩, ⟨125, 1000, [2, 1, 0, 1]⟩, ⟨-125, 1000, [2, 1, 1, 0]⟩, ⟨125, 1000, [2, 1, 1, 1]⟩],
  [⟨-1875, 10000, [0, 0, 0, 0]⟩, ⟨125, 1000, [0, 0, 0, 1]⟩, ⟨625, 10000, [0, 0, 0, 2]⟩, ⟨-125, 1000, [0, 0, 1, 0]⟩, ⟨625, 10000, [0, 0, 1, 1]⟩, ⟨625, 10000, [0, 0, 1, 2]⟩, ⟨625, 10000, [0, 0, 2, 0]⟩, ⟨-625, 10000, [0, 0, 2, 1]⟩, ⟨-125, 1000, [0, 1, 0, 0]⟩, ⟨625, 10000, [0, 1, 0, 1]⟩, ⟨625, 10000, [0, 1, 0, 2]⟩, ⟨-625, 10000, [0, 1, 1, 0]⟩, ⟨625, 10000, [0, 1, 1, 2]⟩, ⟨625, 10000, [0, 1, 2, 0]⟩, ⟨-625, 10000, [0, 1, 2, 1]⟩, ⟨625, 10000, [0, 2, 0, 0]⟩, ⟨-625, 10000, [0, 2, 0, 1]⟩, ⟨625, 10000, [0, 2, 1, 0]⟩, ⟨-625, 10000, [0, 2, 1, 1]⟩, ⟨-125, 1000, [1, 0, 0, 0]⟩, ⟨625, 10000, [1, 0, 0, 1]⟩, ⟨625, 10000, [1, 0, 0, 2]⟩, ⟨-625, 10000, [1, 0, 1, 0]⟩, ⟨625, 10000, [1, 0, 1, 2]⟩, ⟨625, 10000, [1, 0, 2, 0]⟩, ⟨-625, 10000, [1, 0, 2, 1]⟩, ⟨-625, 10000, [1, 1, 0, 0]⟩, ⟨625, 10000, [1, 1, 0, 2]⟩, ⟨-625, 10000, [1, 1, 1, 1]⟩, ⟨625, 10000, [1, 1, 1, 2]⟩, ⟨625, 10000, [1, 1, 2, 0]⟩, ⟨-625, 10000, [1, 1, 2, 1]⟩, ⟨625, 10000, [1, 2, 0, 0]⟩, ⟨-625, 10000, [1, 2, 0, 1]⟩, ⟨625, 10000, [1, 2, 1, 0]⟩, ⟨-625, 10000, [1, 2, 1, 1]⟩, ⟨625, 10000, [2, 0, 0, 0]⟩, ⟨-625, 10000, [2, 0, 0, 1]⟩, ⟨625, 10000, [2, 0, 1, 0]⟩, ⟨-625, 10000, [2, 0, 1, 1]⟩, ⟨625, 10000, [2, 1, 0, 0]⟩, ⟨-625, 10000, [2, 1, 0, 1]⟩, ⟨625, 10000, [2, 1, 1, 0]⟩, ⟨-625, 10000, [2, 1, 1, 1]⟩],
  [⟨125, 1000, [0, 0, 0, 0]⟩, ⟨-125, 1000, [0, 0, 0, 2]⟩, ⟨-125, 1000, [0, 0, 1, 0]⟩, ⟨125, 1000, [0, 0, 1, 2]⟩, ⟨-125, 1000, [0, 1, 0, 0]⟩, ⟨125, 1000, [0, 1, 0, 2]⟩, ⟨125, 1000, [0, 1, 1, 0]⟩, ⟨-125, 1000, [0, 1, 1, 2]⟩, ⟨-125, 1000, [1, 0, 0, 0]⟩, ⟨125, 1000, [1, 0, 0, 2]⟩, ⟨125, 1000, [1, 0, 1, 0]⟩, ⟨-125, 1000, [1, 0, 1, 2]⟩, ⟨125, 1000, [1, 1, 0, 0]⟩, ⟨-125, 1000, [1, 1, 0, 2]⟩, ⟨-125, 1000, [1, 1, 1, 0]⟩, ⟨125, 1000, [1, 1, 1, 2]⟩],
  [⟨125, 1000, [0, 0, 0, 0]⟩, ⟨-125, 1000, [0, 0, 0, 2]⟩, ⟨-125, 1000, [0, 0, 1, 0]⟩, ⟨125, 1000, [0, 0, 1, 2]⟩, ⟨-125, 1000, [0, 1, 0, 0]⟩, ⟨125, 1000, [0, 1, 0, 2]⟩, ⟨125, 1000, [0, 1, 1, 0]⟩, ⟨-125, 1000, [0, 1, 1, 2]⟩, ⟨125, 1000, [1, 0, 0, 0]⟩, ⟨-125, 1000, [1, 0, 0, 2]⟩, ⟨-125, 1000, [1, 0, 1, 0]⟩, ⟨125, 1000, [1, 0, 1, 2]⟩, ⟨-125, 1000, [1, 1, 0, 0]⟩, ⟨125, 1000, [1, 1, 0, 2]⟩, ⟨125, 1000, [1, 1, 1, 0]⟩, ⟨-125, 1000, [1, 1, 1, 2]⟩],
  [⟨125, 1000, [0, 0, 0, 0]⟩, ⟨-125, 1000, [0, 0, 0, 2]⟩, ⟨-125, 1000, [0, 0, 1, 0]⟩, ⟨125, 1000, [0, 0, 1, 2]⟩, ⟨125, 1000, [0, 1, 0, 0]⟩, ⟨-125, 1000, [0, 1, 0, 2]⟩, ⟨-125, 1000, [0, 1, 1, 0]⟩, ⟨125, 1000, [0, 1, 1, 2]⟩, ⟨-125, 1000, [1, 0, 0, 0]⟩, ⟨125, 1000, [1, 0, 0, 2]⟩, ⟨125, 1000, [1, 0, 1, 0]⟩, ⟨-125, 1000, [1, 0, 1, 2]⟩, ⟨-125, 1000, [1, 1, 0, 0]⟩, ⟨125, 1000, [1, 1, 0, 2]⟩, ⟨125, 1000, [1, 1, 1, 0]⟩, ⟨-125, 1000, [1, 1, 1, 2]⟩],
  [⟨125, 1000, [0, 0, 0, 0]⟩, ⟨-125, 1000, [0, 0, 0, 2]⟩, ⟨-125, 1000, [0, 0, 1, 0]⟩, ⟨125, 1000, [0, 0, 1, 2]⟩, ⟨125, 1000, [0, 1, 0, 0]⟩, ⟨-125, 1000, [0, 1, 0, 2]⟩, ⟨-125, 1000, [0, 1, 1, 0]⟩, ⟨125, 1000, [0, 1, 1, 2]⟩, ⟨125, 1000, [1, 0, 0, 0]⟩, ⟨-125, 1000, [1, 0, 0, 2]⟩, ⟨-125, 1000, [1, 0, 1, 0]⟩, ⟨125, 1000, [1, 0, 1, 2]⟩, ⟨125, 1000, [1, 1, 0, 0]⟩, ⟨-125, 1000, [1, 1, 0, 2]⟩, ⟨-125, 1000, [1, 1, 1, 0]⟩, ⟨125, 1000, [1, 1, 1, 2]⟩],
  [⟨125, 1000, [0, 0, 0, 0]⟩, ⟨-125, 1000, [0, 0, 0, 2]⟩, ⟨125, 1000, [0, 0, 1, 0]⟩, ⟨-125, 1000, [0, 0, 1, 2]⟩, ⟨-125, 1000, [0, 1, 0, 0]⟩, ⟨125, 1000, [0, 1, 0, 2]⟩, ⟨-125, 1000, [0, 1, 1, 0]⟩, ⟨125, 1000, [0, 1, 1, 2]⟩, ⟨-125, 1000, [1, 0, 0, 0]⟩, ⟨125, 1000, [1, 0, 0, 2]⟩, ⟨-125, 1000, [1, 0, 1, 0]⟩, ⟨125, 1000, [1, 0, 1, 2]⟩, ⟨125, 1000, [1, 1, 0, 0]⟩, ⟨-125, 1000, [1, 1, 0, 2]⟩, ⟨125, 1000, [1, 1, 1, 0]⟩, ⟨-125, 1000, [1, 1, 1, 2]⟩],
  [⟨125, 1000, [0, 0, 0, 0]⟩, ⟨-125, 1000, [0, 0, 0, 2]⟩, ⟨125, 1000, [0, 0, 1, 0]⟩, ⟨-125, 1000, [0, 0, 1, 2]⟩, ⟨-125, 1000, [0, 1, 0, 0]⟩, ⟨125, 1000, [0, 1, 0, 2]⟩, ⟨-125, 1000, [0, 1, 1, 0]⟩, ⟨125, 1000, [0, 1, 1, 2]⟩, ⟨125, 1000, [1, 0, 0, 0]⟩, ⟨-125, 1000, [1, 0, 0, 2]⟩, ⟨125, 1000, [1, 0, 1, 0]⟩, ⟨-125, 1000, [1, 0, 1, 2]⟩, ⟨-125, 1000, [1, 1, 0, 0]⟩, ⟨125, 1000, [1, 1, 0, 2]⟩, ⟨-125, 1000, [1, 1, 1, 0]⟩, ⟨125, 1000, [1, 1, 1, 2]⟩],
  [⟨125, 1000, [0, 0, 0, 0]⟩, ⟨-125, 1000, [0, 0, 0, 2]⟩, ⟨125, 1000, [0, 0, 1, 0]⟩, ⟨-125, 1000, [0, 0, 1, 2]⟩, ⟨125, 1000, [0, 1, 0, 0]⟩, ⟨-125, 1000, [0, 1, 0, 2]⟩, ⟨125, 1000, [0, 1, 1, 0]⟩, ⟨-125, 1000, [0, 1, 1, 2]⟩, ⟨-125, 1000, [1, 0, 0, 0]⟩, ⟨125, 1000, [1, 0, 0, 2]⟩, ⟨-125, 1000, [1, 0, 1, 0]⟩, ⟨125, 1000, [1, 0, 1, 2]⟩, ⟨-125, 1000, [1, 1, 0, 0]⟩, ⟨125, 1000, [1, 1, 0, 2]⟩, ⟨-125, 1000, [1, 1, 1, 0]⟩, ⟨125, 1000, [1, 1, 1, 2]⟩],
  [⟨125, 1000, [0, 0, 0, 0]⟩, ⟨-125, 1000, [0, 0, 0, 2]⟩, ⟨125, 1000, [0, 0, 1, 0]⟩, ⟨-125, 1000, [0, 0, 1, 2]⟩, ⟨125, 1000, [0, 1, 0, 0]⟩, ⟨-125, 1000, [0, 1, 0, 2]⟩, ⟨125, 1000, [0, 1, 1, 0]⟩, ⟨-125, 1000, [0, 1, 1, 2]⟩, ⟨125, 1000, [1, 0, 0, 0]⟩, ⟨-125, 1000, [1, 0, 0, 2]⟩, ⟨125, 1000, [1, 0, 1, 0]⟩, ⟨-125, 1000, [1, 0, 1, 2]⟩, ⟨125, 1000, [1, 1, 0, 0]⟩, ⟨-125, 1000, [1, 1, 0, 2]⟩, ⟨125, 1000, [1, 1, 1, 0]⟩, ⟨-125, 1000, [1, 1, 1, 2]⟩],
  [⟨-1875, 10000, [0, 0, 0, 0]⟩, ⟨-125, 1000, [0, 0, 0, 1]⟩, ⟨625, 10000, [0, 0, 0, 2]⟩, ⟨125, 1000, [0, 0, 1, 0]⟩, ⟨625, 10000, [0, 0, 1, 1]⟩, ⟨-625, 10000, [0, 0, 1, 2]⟩, ⟨625, 10000, [0, 0, 2, 0]⟩, ⟨625, 10000, [0, 0, 2, 1]⟩, ⟨125, 1000, [0, 1, 0, 0]⟩, ⟨625, 10000, [0, 1, 0, 1]⟩, ⟨-625, 10000, [0, 1, 0, 2]⟩, ⟨-625, 10000, [0, 1, 1, 0]⟩, ⟨625, 10000, [0, 1, 1, 2]⟩, ⟨-625, 10000, [0, 1, 2, 0]⟩, ⟨-625, 10000, [0, 1, 2, 1]⟩, ⟨625, 10000, [0, 2, 0, 0]⟩, ⟨625, 10000, [0, 2, 0, 1]⟩, ⟨-625, 10000, [0, 2, 1, 0]⟩, ⟨-625, 10000, [0, 2, 1, 1]⟩, ⟨125, 1000, [1, 0, 0, 0]⟩, ⟨625, 10000, [1, 0, 0, 1]⟩, ⟨-625, 10000, [1, 0, 0, 2]⟩, ⟨-625, 10000, [1, 0, 1, 0]⟩, ⟨625, 10000, [1, 0, 1, 2]⟩, ⟨-625, 10000, [1, 0, 2, 0]⟩, ⟨-625, 10000, [1, 0, 2, 1]⟩, ⟨-625, 10000, [1, 1, 0, 0]⟩, ⟨625, 10000, [1, 1, 0, 2]⟩, ⟨-625, 10000, [1, 1, 1, 1]⟩, ⟨-625, 10000, [1, 1, 1, 2]⟩, ⟨625, 10000, [1, 1, 2, 0]⟩, ⟨625, 10000, [1, 1, 2, 1]⟩, ⟨-625, 10000, [1, 2, 0, 0]⟩, ⟨-625, 10000, [1, 2, 0, 1]⟩, ⟨625, 10000, [1, 2, 1, 0]⟩, ⟨625, 10000, [1, 2, 1, 1]⟩, ⟨625, 10000, [2, 0, 0, 0]⟩, ⟨625, 10000, [2, 0, 0, 1]⟩, ⟨-625, 10000, [2, 0, 1, 0]⟩, ⟨-625, 10000, [2, 0, 1, 1]⟩, ⟨-625, 10000, [2, 1, 0, 0]⟩, ⟨-625, 10000, [2, 1, 0, 1]⟩, ⟨625, 10000, [2, 1, 1, 0]⟩, ⟨625, 10000, [2, 1, 1, 1]⟩],
  [⟨125, 1000, [0, 0, 0, 0]⟩, ⟨125, 1000, [0, 0, 0, 1]⟩, ⟨-125, 1000, [0, 0, 1, 0]⟩, ⟨-125, 1000, [0, 0, 1, 1]⟩, ⟨-125, 1000, [0, 1, 0, 0]⟩, ⟨-125, 1000, [0, 1, 0, 1]⟩, ⟨125, 1000, [0, 1, 1, 0]⟩, ⟨125, 1000, [0, 1, 1, 1]⟩, ⟨-125, 1000, [2, 0, 0, 0]⟩, ⟨-125, 1000, [2, 0, 0, 1]⟩, ⟨125, 1000, [2, 0, 1, 0]⟩, ⟨125, 1000, [2, 0, 1, 1]⟩, ⟨125, 1000, [2, 1, 0, 0]⟩, ⟨125, 1000, [2, 1, 0, 1]⟩, ⟨-125, 1000, [2, 1, 1, 0]⟩, ⟨-125, 1000, [2, 1, 1, 1]⟩],
  [⟨-1875, 10000, [0, 0, 0, 0]⟩, ⟨-125, 1000, [0, 0, 0, 1]⟩, ⟨625, 10000, [0, 0, 0, 2]⟩, ⟨125, 1000, [0, 0, 1, 0]⟩, ⟨625, 10000, [0, 0, 1, 1]⟩, ⟨-625, 10000, [0, 0, 1, 2]⟩, ⟨625, 10000, [0, 0, 2, 0]⟩, ⟨625, 10000, [0, 0, 2, 1]⟩, ⟨125, 1000, [0, 1, 0, 0]⟩, ⟨625, 10000, [0, 1, 0, 1]⟩, ⟨-625, 10000, [0, 1, 0, 2]⟩, ⟨-625, 10000, [0, 1, 1, 0]⟩, ⟨625, 10000, [0, 1, 1, 2]⟩, ⟨-625, 10000, [0, 1, 2, 0]⟩, ⟨-625, 10000, [0, 1, 2, 1]⟩, ⟨625, 10000, [0, 2, 0, 0]⟩, ⟨625, 10000, [0, 2, 0, 1]⟩, ⟨-625, 10000, [0, 2, 1, 0]⟩, ⟨-625, 10000, [0, 2, 1, 1]⟩, ⟨-125, 1000, [1, 0, 0, 0]⟩, ⟨-625, 10000, [1, 0, 0, 1]⟩, ⟨625, 10000, [1, 0, 0, 2]⟩, ⟨625, 10000, [1, 0, 1, 0]⟩, ⟨-625, 10000, [1, 0, 1, 2]⟩, ⟨625, 10000, [1, 0, 2, 0]⟩, ⟨625, 10000, [1, 0, 2, 1]⟩, ⟨625, 10000, [1, 1, 0, 0]⟩, ⟨-625, 10000, [1, 1, 0, 2]⟩, ⟨625, 10000, [1, 1, 1, 1]⟩, ⟨625, 10000, [1, 1, 1, 2]⟩, ⟨-625, 10000, [1, 1, 2, 0]⟩, ⟨-625, 10000, [1, 1, 2, 1]⟩, ⟨625, 10000, [1, 2, 0, 0]⟩, ⟨625, 10000, [1, 2, 0, 1]⟩, ⟨-625, 10000, [1, 2, 1, 0]⟩, ⟨-625, 10000, [1, 2, 1, 1]⟩, ⟨625, 10000, [2, 0, 0, 0]⟩, ⟨625, 10000, [2, 0, 0, 1]⟩, ⟨-625, 10000, [2, 0, 1, 0]⟩, ⟨-625, 10000, [2, 0, 1, 1]⟩, ⟨-625, 10000, [2, 1, 0, 0]⟩, ⟨-625, 10000, [2, 1, 0, 1]⟩, ⟨625, 10000, [2, 1, 1, 0]⟩, ⟨625, 10000, [2, 1, 1, 1]⟩],
  [⟨125, 1000, [0, 0, 0, 0]⟩, ⟨125, 1000, [0, 0, 0, 1]⟩, ⟨-125, 1000, [0, 0, 1, 0]⟩, ⟨-125, 1000, [0, 0, 1, 1]⟩, ⟨-125, 1000, [0, 2, 0, 0]⟩, ⟨-125, 1000, [0, 2, 0, 1]⟩, ⟨125, 1000, [0, 2, 1, 0]⟩, ⟨125, 1000, [0, 2, 1, 1]⟩, ⟨-125, 1000, [1, 0, 0, 0]⟩, ⟨-125, 1000, [1, 0, 0, 1]⟩, ⟨125, 1000, [1, 0, 1, 0]⟩, ⟨125, 1000, [1, 0, 1, 1]⟩, ⟨125, 1000, [1, 2, 0, 0]⟩, ⟨125, 1000, [1, 2, 0, 1]⟩, ⟨-125, 1000, [1, 2, 1, 0]⟩, ⟨-125, 1000, [1, 2, 1, 1]⟩],
  [⟨125, 1000, [0, 0, 0, 0]⟩, ⟨125, 1000, [0, 0, 0, 1]⟩, ⟨-125, 1000, [0, 0, 1, 0]⟩, ⟨-125, 1000, [0, 0, 1, 1]⟩, ⟨-125, 1000, [0, 2, 0, 0]⟩, ⟨-125, 1000, [0, 2, 0, 1]⟩, ⟨125, 1000, [0, 2, 1, 0]⟩, ⟨125, 1000, [0, 2, 1, 1]⟩, ⟨125, 1000, [1, 0, 0, 0]⟩, ⟨125, 1000, [1, 0, 0, 1]⟩, ⟨-125, 1000, [1, 0, 1, 0]⟩, ⟨-125, 1000, [1, 0, 1, 1]⟩, ⟨-125, 1000, [1, 2, 0, 0]⟩, ⟨-125, 1000, [1, 2, 0, 1]⟩, ⟨125, 1000, [1, 2, 1, 0]⟩, ⟨125, 1000, [1, 2, 1, 1]⟩],
  [⟨-1875, 10000, [0, 0, 0, 0]⟩, ⟨-125, 1000, [0, 0, 0, 1]⟩, ⟨625, 10000, [0, 0, 0, 2]⟩, ⟨125, 1000, [0, 0, 1, 0]⟩, ⟨625, 10000, [0, 0, 1, 1]⟩, ⟨-625, 10000, [0, 0, 1, 2]⟩, ⟨625, 10000, [0, 0, 2, 0]⟩, ⟨625, 10000, [0, 0, 2, 1]⟩, ⟨-125, 1000, [0, 1, 0, 0]⟩, ⟨-625, 10000, [0, 1, 0, 1]⟩, ⟨625, 10000, [0, 1, 0, 2]⟩, ⟨625, 10000, [0, 1, 1, 0]⟩, ⟨-625, 10000, [0, 1, 1, 2]⟩, ⟨625, 10000, [0, 1, 2, 0]⟩, ⟨625, 10000, [0, 1, 2, 1]⟩, ⟨625, 10000, [0, 2, 0, 0]⟩, ⟨625, 10000, [0, 2, 0, 1]⟩, ⟨-625, 10000, [0, 2, 1, 0]⟩, ⟨-625, 10000, [0, 2, 1, 1]⟩, ⟨125, 1000, [1, 0, 0, 0]⟩, ⟨625, 10000, [1, 0, 0, 1]⟩, ⟨-625, 10000, [1, 0, 0, 2]⟩, ⟨-625, 10000, [1, 0, 1, 0]⟩, ⟨625, 10000, [1, 0, 1, 2]⟩, ⟨-625, 10000, [1, 0, 2, 0]⟩, ⟨-625, 10000, [1, 0, 2, 1]⟩, ⟨625, 10000, [1, 1, 0, 0]⟩, ⟨-625, 10000, [1, 1, 0, 2]⟩, ⟨625, 10000, [1, 1, 1, 1]⟩, ⟨625, 10000, [1, 1, 1, 2]⟩, ⟨-625, 10000, [1, 1, 2, 0]⟩, ⟨-625, 10000, [1, 1, 2, 1]⟩, ⟨-625, 10000, [1, 2, 0, 0]⟩, ⟨-625, 10000, [1, 2, 0, 1]⟩, ⟨625, 10000, [1, 2, 1, 0]⟩, ⟨625, 10000, [1, 2, 1, 1]⟩, ⟨625, 10000, [2, 0, 0, 0]⟩, ⟨625, 10000, [2, 0, 0, 1]⟩, ⟨-625, 10000, [2, 0, 1, 0]⟩, ⟨-625, 10000, [2, 0, 1, 1]⟩, ⟨625, 10000, [2, 1, 0, 0]⟩, ⟨625, 10000, [2, 1, 0, 1]⟩, ⟨-625, 10000, [2, 1, 1, 0]⟩, ⟨-625, 10000, [2, 1, 1, 1]⟩],
  [⟨125, 1000, [0, 0, 0, 0]⟩, ⟨125, 1000, [0, 0, 0, 1]⟩, ⟨-125, 1000, [0, 0, 1, 0]⟩, ⟨-125, 1000, [0, 0, 1, 1]⟩, ⟨125, 1000, [0, 1, 0, 0]⟩, ⟨125, 1000, [0, 1, 0, 1]⟩, ⟨-125, 1000, [0, 1, 1, 0]⟩, ⟨-125, 1000, [0, 1, 1, 1]⟩, ⟨-125, 1000, [2, 0, 0, 0]⟩, ⟨-125, 1000, [2, 0, 0, 1]⟩, ⟨125, 1000, [2, 0, 1, 0]⟩, ⟨125, 1000, [2, 0, 1, 1]⟩, ⟨-125, 1000, [2, 1, 0, 0]⟩, ⟨-125, 1000, [2, 1, 0, 1]⟩, ⟨125, 1000, [2, 1, 1, 0]⟩, ⟨125, 1000, [2, 1, 1, 1]⟩],
  [⟨-1875, 10000, [0, 0, 0, 0]⟩, ⟨-125, 1000, [0, 0, 0, 1]⟩, ⟨625, 10000, [0, 0, 0, 2]⟩, ⟨125, 1000, [0, 0, 1, 0]⟩, ⟨625, 10000, [0, 0, 1, 1]⟩, ⟨-625, 10000, [0, 0, 1, 2]⟩, ⟨625, 10000, [0, 0, 2, 0]⟩, ⟨625, 10000, [0, 0, 2, 1]⟩, ⟨-125, 1000, [0, 1, 0, 0]⟩, ⟨-625, 10000, [0, 1, 0, 1]⟩, ⟨625, 10000, [0, 1, 0, 2]⟩, ⟨625, 10000, [0, 1, 1, 0]⟩, ⟨-625, 10000, [0, 1, 1, 2]⟩, ⟨625, 10000, [0, 1, 2, 0]⟩, ⟨625, 10000, [0, 1, 2, 1]⟩, ⟨625, 10000, [0, 2, 0, 0]⟩, ⟨625, 10000, [0, 2, 0, 1]⟩, ⟨-625, 10000, [0, 2, 1, 0]⟩, ⟨-625, 10000, [0, 2, 1, 1]⟩, ⟨-125, 1000, [1, 0, 0, 0]⟩, ⟨-625, 10000, [1, 0, 0, 1]⟩, ⟨625, 10000, [1, 0, 0, 2]⟩, ⟨625, 10000, [1, 0, 1, 0]⟩, ⟨-625, 10000, [1, 0, 1, 2]⟩, ⟨625, 10000, [1, 0, 2, 0]⟩, ⟨625, 10000, [1, 0, 2, 1]⟩, ⟨-625, 10000, [1, 1, 0, 0]⟩, ⟨625, 10000, [1, 1, 0, 2]⟩, ⟨-625, 10000, [1, 1, 1, 1]⟩, ⟨-625, 10000, [1, 1, 1, 2]⟩, ⟨625, 10000, [1, 1, 2, 0]⟩, ⟨625, 10000, [1, 1, 2, 1]⟩, ⟨625, 10000, [1, 2, 0, 0]⟩, ⟨625, 10000, [1, 2, 0, 1]⟩, ⟨-625, 10000, [1, 2, 1, 0]⟩, ⟨-625, 10000, [1, 2, 1, 1]⟩, ⟨625, 10000, [2, 0, 0, 0]⟩, ⟨625, 10000, [2, 0, 0, 1]⟩, ⟨-625, 10000, [2, 0, 1, 0]⟩, ⟨-625, 10000, [2, 0, 1, 1]⟩, ⟨625, 10000, [2, 1, 0, 0]⟩, ⟨625, 10000, [2, 1, 0, 1]⟩, ⟨-625, 10000, [2, 1, 1, 0]⟩, ⟨-625, 10000, [2, 1, 1, 1]⟩],
  [⟨125, 1000, [0, 0, 0, 0]⟩, ⟨125, 1000, [0, 0, 0, 1]⟩, ⟨-125, 1000, [0, 0, 2, 0]⟩, ⟨-125, 1000, [0, 0, 2, 1]⟩, ⟨-125, 1000, [0, 1, 0, 0]⟩, ⟨-125, 1000, [0, 1, 0, 1]⟩, ⟨125, 1000, [0, 1, 2, 0]⟩, ⟨125, 1000, [0, 1, 2, 1]⟩, ⟨-125, 1000, [1, 0, 0, 0]⟩, ⟨-125, 1000, [1, 0, 0, 1]⟩, ⟨125, 1000, [1, 0, 2, 0]⟩, ⟨125, 1000, [1, 0, 2, 1]⟩, ⟨125, 1000, [1, 1, 0, 0]⟩, ⟨125, 1000, [1, 1, 0, 1]⟩, ⟨-125, 1000, [1, 1, 2, 0]⟩, ⟨-125, 1000, [1, 1, 2, 1]⟩],
  [⟨125, 1000, [0, 0, 0, 0]⟩, ⟨125, 1000, [0, 0, 0, 1]⟩, ⟨-125, 1000, [0, 0, 2, 0]⟩, ⟨-125, 1000, [0, 0, 2, 1]⟩, ⟨-125, 1000, [0, 1, 0, 0]⟩, ⟨-125, 1000, [0, 1, 0, 1]⟩, ⟨125, 1000, [0, 1, 2, 0]⟩, ⟨125, 1000, [0, 1, 2, 1]⟩, ⟨125, 1000, [1, 0, 0, 0]⟩, ⟨125, 1000, [1, 0, 0, 1]⟩, ⟨-125, 1000, [1, 0, 2, 0]⟩, ⟨-125, 1000, [1, 0, 2, 1]⟩, ⟨-125, 1000, [1, 1, 0, 0]⟩, ⟨-125, 1000, [1, 1, 0, 1]⟩, ⟨125, 1000, [1, 1, 2, 0]⟩, ⟨125, 1000, [1, 1, 2, 1]⟩],
  [⟨125, 1000, [0, 0, 0, 0]⟩, ⟨125, 1000, [0, 0, 0, 1]⟩, ⟨-125, 1000, [0, 0, 2, 0]⟩, ⟨-125, 1000, [0, 0, 2, 1]⟩, ⟨125, 1000, [0, 1, 0, 0]⟩, ⟨125, 1000, [0, 1, 0, 1]⟩, ⟨-125, 1000, [0, 1, 2, 0]⟩, ⟨-125, 1000, [0, 1, 2, 1]⟩, ⟨-125, 1000, [1, 0, 0, 0]⟩, ⟨-125, 1000, [1, 0, 0, 1]⟩, ⟨125, 1000, [1, 0, 2, 0]⟩, ⟨125, 1000, [1, 0, 2, 1]⟩, ⟨-125, 1000, [1, 1, 0, 0]⟩, ⟨-125, 1000, [1, 1, 0, 1]⟩, ⟨125, 1000, [1, 1, 2, 0]⟩, ⟨125, 1000, [1, 1, 2, 1]⟩],
  [⟨125, 1000, [0, 0, 0, 0]⟩, ⟨125, 1000, [0, 0, 0, 1]⟩, ⟨-125, 1000, [0, 0, 2, 0]⟩, ⟨-125, 1000, [0, 0, 2, 1]⟩, ⟨125, 1000, [0, 1, 0, 0]⟩, ⟨125, 1000, [0, 1, 0, 1]⟩, ⟨-125, 1000, [0, 1, 2, 0]⟩, ⟨-125, 1000, [0, 1, 2, 1]⟩, ⟨125, 1000, [1, 0, 0, 0]⟩, ⟨125, 1000, [1, 0, 0, 1]⟩, ⟨-125, 1000, [1, 0, 2, 0]⟩, ⟨-125, 1000, [1, 0, 2, 1]⟩, ⟨125, 1000, [1, 1, 0, 0]⟩, ⟨125, 1000, [1, 1, 0, 1]⟩, ⟨-125, 1000, [1, 1, 2, 0]⟩, ⟨-125, 1000, [1, 1, 2, 1]⟩],
  [⟨-1875, 10000, [0, 0, 0, 0]⟩, ⟨-125, 1000, [0, 0, 0, 1]⟩, ⟨625, 10000, [0, 0, 0, 2]⟩, ⟨-125, 1000, [0, 0, 1, 0]⟩, ⟨-625, 10000, [0, 0, 1, 1]⟩, ⟨625, 10000, [0, 0, 1, 2]⟩, ⟨625, 10000, [0, 0, 2, 0]⟩, ⟨625, 10000, [0, 0, 2, 1]⟩, ⟨125, 1000, [0, 1, 0, 0]⟩, ⟨625, 10000, [0, 1, 0, 1]⟩, ⟨-625, 10000, [0, 1, 0, 2]⟩, ⟨625, 10000, [0, 1, 1, 0]⟩, ⟨-625, 10000, [0, 1, 1, 2]⟩, ⟨-625, 10000, [0, 1, 2, 0]⟩, ⟨-625, 10000, [0, 1, 2, 1]⟩, ⟨625, 10000, [0, 2, 0, 0]⟩, ⟨625, 10000, [0, 2, 0, 1]⟩, ⟨625, 10000, [0, 2, 1, 0]⟩, ⟨625, 10000, [0, 2, 1, 1]⟩, ⟨125, 1000, [1, 0, 0, 0]⟩, ⟨625, 10000, [1, 0, 0, 1]⟩, ⟨-625, 10000, [1, 0, 0, 2]⟩, ⟨625, 10000, [1, 0, 1, 0]⟩, ⟨-625, 10000, [1, 0, 1, 2]⟩, ⟨-625, 10000, [1, 0, 2, 0]⟩, ⟨-625, 10000, [1, 0, 2, 1]⟩, ⟨-625, 10000, [1, 1, 0, 0]⟩, ⟨625, 10000, [1, 1, 0, 2]⟩, ⟨625, 10000, [1, 1, 1, 1]⟩, ⟨625, 10000, [1, 1, 1, 2]⟩, ⟨625, 10000, [1, 1, 2, 0]⟩, ⟨625, 10000, [1, 1, 2, 1]⟩, ⟨-625, 10000, [1, 2, 0, 0]⟩, ⟨-625, 10000, [1, 2, 0, 1]⟩, ⟨-625, 10000, [1, 2, 1, 0]⟩, ⟨-625, 10000, [1, 2, 1, 1]⟩, ⟨625, 10000, [2, 0, 0, 0]⟩, ⟨625, 10000, [2, 0, 0, 1]⟩, ⟨625, 10000, [2, 0, 1, 0]⟩, ⟨625, 10000, [2, 0, 1, 1]⟩, ⟨-625, 10000, [2, 1, 0, 0]⟩, ⟨-625, 10000, [2, 1, 0, 1]⟩, ⟨-625, 10000, [2, 1, 1, 0]⟩, ⟨-625, 10000, [2, 1, 1, 1]⟩],
  [⟨125, 1000, [0, 0, 0, 0]⟩, ⟨125, 1000, [0, 0, 0, 1]⟩, ⟨125, 1000, [0, 0, 1, 0]⟩, ⟨125, 1000, [0, 0, 1, 1]⟩, ⟨-125, 1000, [0, 1, 0, 0]⟩, ⟨-125, 1000, [0, 1, 0, 1]⟩, ⟨-125, 1000, [0, 1, 1, 0]⟩, ⟨-125, 1000, [0, 1, 1, 1]⟩, ⟨-125, 1000, [2, 0, 0, 0]⟩, ⟨-125, 1000, [2, 0, 0, 1]⟩, ⟨-125, 1000, [2, 0, 1, 0]⟩, ⟨-125, 1000, [2, 0, 1, 1]⟩, ⟨125, 1000, [2, 1, 0, 0]⟩, ⟨125, 1000, [2, 1, 0, 1]⟩, ⟨125, 1000, [2, 1, 1, 0]⟩, ⟨125, 1000, [2, 1, 1, 1]⟩],
  [⟨-1875, 10000, [0, 0, 0, 0]⟩, ⟨-125, 1000, [0, 0, 0, 1]⟩, ⟨625, 10000, [0, 0, 0, 2]⟩, ⟨-125, 1000, [0, 0, 1, 0]⟩, ⟨-625, 10000, [0, 0, 1, 1]⟩, ⟨625, 10000, [0, 0, 1, 2]⟩, ⟨625, 10000, [0, 0, 2, 0]⟩, ⟨625, 10000, [0, 0, 2, 1]⟩, ⟨125, 1000, [0, 1, 0, 0]⟩, ⟨625, 10000, [0, 1, 0, 1]⟩, ⟨-625, 10000, [0, 1, 0, 2]⟩, ⟨625, 10000, [0, 1, 1, 0]⟩, ⟨-625, 10000, [0, 1, 1, 2]⟩, ⟨-625, 10000, [0, 1, 2, 0]⟩, ⟨-625, 10000, [0, 1, 2, 1]⟩, ⟨625, 10000, [0, 2, 0, 0]⟩, ⟨625, 10000, [0, 2, 0, 1]⟩, ⟨625, 10000, [0, 2, 1, 0]⟩, ⟨625, 10000, [0, 2, 1, 1]⟩, ⟨-125, 1000, [1, 0, 0, 0]⟩, ⟨-625, 10000, [1, 0, 0, 1]⟩, ⟨625, 10000, [1, 0, 0, 2]⟩, ⟨-625, 10000, [1, 0, 1, 0]⟩, ⟨625, 10000, [1, 0, 1, 2]⟩, ⟨625, 10000, [1, 0, 2, 0]⟩, ⟨625, 10000, [1, 0, 2, 1]⟩, ⟨625, 10000, [1, 1, 0, 0]⟩, ⟨-625, 10000, [1, 1, 0, 2]⟩, ⟨-625, 10000, [1, 1, 1, 1]⟩, ⟨-625, 10000, [1, 1, 1, 2]⟩, ⟨-625, 10000, [1, 1, 2, 0]⟩, ⟨-625, 10000, [1, 1, 2, 1]⟩, ⟨625, 10000, [1, 2, 0, 0]⟩, ⟨625, 10000, [1, 2, 0, 1]⟩, ⟨625, 10000, [1, 2, 1, 0]⟩, ⟨625, 10000, [1, 2, 1, 1]⟩, ⟨625, 10000, [2, 0, 0, 0]⟩, ⟨625, 10000, [2, 0, 0, 1]⟩, ⟨625, 10000, [2, 0, 1, 0]⟩, ⟨625, 10000, [2, 0, 1, 1]⟩, ⟨-625, 10000, [2, 1, 0, 0]⟩, ⟨-625, 10000, [2, 1, 0, 1]⟩, ⟨-625, 10000, [2, 1, 1, 0]⟩, ⟨-625, 10000, [2, 1, 1, 1]⟩],
  [⟨125, 1000, [0, 0, 0, 0]⟩, ⟨125, 1000, [0, 0, 0, 1]⟩, ⟨125, 1000, [0, 0, 1, 0]⟩, ⟨125, 1000, [0, 0, 1, 1]⟩, ⟨-125, 1000, [0, 2, 0, 0]⟩, ⟨-125, 1000, [0, 2, 0, 1]⟩, ⟨-125, 1000, [0, 2, 1, 0]⟩, ⟨-125, 1000, [0, 2, 1, 1]⟩, ⟨-125, 1000, [1, 0, 0, 0]⟩, ⟨-125, 1000, [1, 0, 0, 1]⟩, ⟨-125, 1000, [1, 0, 1, 0]⟩, ⟨-125, 1000, [1, 0, 1, 1]⟩, ⟨125, 1000, [1, 2, 0, 0]⟩, ⟨125, 1000, [1, 2, 0, 1]⟩, ⟨125, 1000, [1, 2, 1, 0]⟩, ⟨125, 1000, [1, 2, 1, 1]⟩],
  [⟨125, 1000, [0, 0, 0, 0]⟩, ⟨125, 1000, [0, 0, 0, 1]⟩, ⟨125, 1000, [0, 0, 1, 0]⟩, ⟨125, 1000, [0, 0, 1, 1]⟩, ⟨-125, 1000, [0, 2, 0, 0]⟩, ⟨-125, 1000, [0, 2, 0, 1]⟩, ⟨-125, 1000, [0, 2, 1, 0]⟩, ⟨-125, 1000, [0, 2, 1, 1]⟩, ⟨125, 1000, [1, 0, 0, 0]⟩, ⟨125, 1000, [1, 0, 0, 1]⟩, ⟨125, 1000, [1, 0, 1, 0]⟩, ⟨125, 1000, [1, 0, 1, 1]⟩, ⟨-125, 1000, [1, 2, 0, 0]⟩, ⟨-125, 1000, [1, 2, 0, 1]⟩, ⟨-125, 1000, [1, 2, 1, 0]⟩, ⟨-125, 1000, [1, 2, 1, 1]⟩],
  [⟨-1875, 10000, [0, 0, 0, 0]⟩, ⟨-125, 1000, [0, 0, 0, 1]⟩, ⟨625, 10000, [0, 0, 0, 2]⟩, ⟨-125, 1000, [0, 0, 1, 0]⟩, ⟨-625, 10000, [0, 0, 1, 1]⟩, ⟨625, 10000, [0, 0, 1, 2]⟩, ⟨625, 10000, [0, 0, 2, 0]⟩, ⟨625, 10000, [0, 0, 2, 1]⟩, ⟨-125, 1000, [0, 1, 0, 0]⟩, ⟨-625, 10000, [0, 1, 0, 1]⟩, ⟨625, 10000, [0, 1, 0, 2]⟩, ⟨-625, 10000, [0, 1, 1, 0]⟩, ⟨625, 10000, [0, 1, 1, 2]⟩, ⟨625, 10000, [0, 1, 2, 0]⟩, ⟨625, 10000, [0, 1, 2, 1]⟩, ⟨625, 10000, [0, 2, 0, 0]⟩, ⟨625, 10000, [0, 2, 0, 1]⟩, ⟨625, 10000, [0, 2, 1, 0]⟩, ⟨625, 10000, [0, 2, 1, 1]⟩, ⟨125, 1000, [1, 0, 0, 0]⟩, ⟨625, 10000, [1, 0, 0, 1]⟩, ⟨-625, 10000, [1, 0, 0, 2]⟩, ⟨625, 10000, [1, 0, 1, 0]⟩, ⟨-625, 10000, [1, 0, 1, 2]⟩, ⟨-625, 10000, [1, 0, 2, 0]⟩, ⟨-625, 10000, [1, 0, 2, 1]⟩, ⟨625, 10000, [1, 1, 0, 0]⟩, ⟨-625, 10000, [1, 1, 0, 2]⟩, ⟨-625, 10000, [1, 1, 1, 1]⟩, ⟨-625, 10000, [1, 1, 1, 2]⟩, ⟨-625, 10000, [1, 1, 2, 0]⟩, ⟨-625, 10000, [1, 1, 2, 1]⟩, ⟨-625, 10000, [1, 2, 0, 0]⟩, ⟨-625, 10000, [1, 2, 0, 1]⟩, ⟨-625, 10000, [1, 2, 1, 0]⟩, ⟨-625, 10000, [1, 2, 1, 1]⟩, ⟨625, 10000, [2, 0, 0, 0]⟩, ⟨625, 10000, [2, 0, 0, 1]⟩, ⟨625, 10000, [2, 0, 1, 0]⟩, ⟨625, 10000, [2, 0, 1, 1]⟩, ⟨625, 10000, [2, 1, 0, 0]⟩, ⟨625, 10000, [2, 1, 0, 1]⟩, ⟨625, 10000, [2, 1, 1, 0]⟩, ⟨625, 10000, [2, 1, 1, 1]⟩],
  [⟨125, 1000, [0, 0, 0, 0]⟩, ⟨125, 1000, [0, 0, 0, 1]⟩, ⟨125, 1000, [0, 0, 1, 0]⟩, ⟨125, 1000, [0, 0, 1, 1]⟩, ⟨125, 1000, [0, 1, 0, 0]⟩, ⟨125, 1000, [0, 1, 0, 1]⟩, ⟨125, 1000, [0, 1, 1, 0]⟩, ⟨125, 1000, [0, 1, 1, 1]⟩, ⟨-125, 1000, [2, 0, 0, 0]⟩, ⟨-125, 1000, [2, 0, 0, 1]⟩, ⟨-125, 1000, [2, 0, 1, 0]⟩, ⟨-125, 1000, [2, 0, 1, 1]⟩, ⟨-125, 1000, [2, 1, 0, 0]⟩, ⟨-125, 1000, [2, 1, 0, 1]⟩, ⟨-125, 1000, [2, 1, 1, 0]⟩, ⟨-125, 1000, [2, 1, 1, 1]⟩],
  [⟨-1875, 10000, [0, 0, 0, 0]⟩, ⟨-125, 1000, [0, 0, 0, 1]⟩, ⟨625, 10000, [0, 0, 0, 2]⟩, ⟨-125, 1000, [0, 0, 1, 0]⟩, ⟨-625, 10000, [0, 0, 1, 1]⟩, ⟨625, 10000, [0, 0, 1, 2]⟩, ⟨625, 10000, [0, 0, 2, 0]⟩, ⟨625, 10000, [0, 0, 2, 1]⟩, ⟨-125, 1000, [0, 1, 0, 0]⟩, ⟨-625, 10000, [0, 1, 0, 1]⟩, ⟨625, 10000, [0, 1, 0, 2]⟩, ⟨-625, 10000, [0, 1, 1, 0]⟩, ⟨625, 10000, [0, 1, 1, 2]⟩, ⟨625, 10000, [0, 1, 2, 0]⟩, ⟨625, 10000, [0, 1, 2, 1]⟩, ⟨625, 10000, [0, 2, 0, 0]⟩, ⟨625, 10000, [0, 2, 0, 1]⟩, ⟨625, 10000, [0, 2, 1, 0]⟩, ⟨625, 10000, [0, 2, 1, 1]⟩, ⟨-125, 1000, [1, 0, 0, 0]⟩, ⟨-625, 10000, [1, 0, 0, 1]⟩, ⟨625, 10000, [1, 0, 0, 2]⟩, ⟨-625, 10000, [1, 0, 1, 0]⟩, ⟨625, 10000, [1, 0, 1, 2]⟩, ⟨625, 10000, [1, 0, 2, 0]⟩, ⟨625, 10000, [1, 0, 2, 1]⟩, ⟨-625, 10000, [1, 1, 0, 0]⟩, ⟨625, 10000, [1, 1, 0, 2]⟩, ⟨625, 10000, [1, 1, 1, 1]⟩, ⟨625, 10000, [1, 1, 1, 2]⟩, ⟨625, 10000, [1, 1, 2, 0]⟩, ⟨625, 10000, [1, 1, 2, 1]⟩, ⟨625, 10000, [1, 2, 0, 0]⟩, ⟨625, 10000, [1, 2, 0, 1]⟩, ⟨625, 10000, [1, 2, 1, 0]⟩, ⟨625, 10000, [1, 2, 1, 1]⟩, ⟨625, 10000, [2, 0, 0, 0]⟩, ⟨625, 10000, [2, 0, 0, 1]⟩, ⟨625, 10000, [2, 0, 1, 0]⟩, ⟨625, 10000, [2, 0, 1, 1]⟩, ⟨625, 10000, [2, 1, 0, 0]⟩, ⟨625, 10000, [2, 1, 0, 1]⟩, ⟨625, 10000, [2, 1, 1, 0]⟩, ⟨625, 10000, [2, 1, 1, 1]⟩]]

/-- computeInterpolationMatrices.py:5231-5240. -/
def modalMax5p1 : List Poly := [
  [⟨1767766952966367, 10000000000000000, [0, 0, 0, 0, 0]⟩],
  [⟨3061862178478966, 10000000000000000, [1, 0, 0, 0, 0]⟩],
  [⟨3061862178478966, 10000000000000000, [0, 1, 0, 0, 0]⟩],
  [⟨3061862178478966, 10000000000000000, [0, 0, 1, 0, 0]⟩],
  [⟨3061862178478966, 10000000000000000, [0, 0, 0, 1, 0]⟩],
  [⟨3061862178478966, 10000000000000000, [0, 0, 0, 0, 1]⟩]]

/-- computeInterpolationMatrices.py:5281-5305. -/
def modalMax5p2 : List Poly := [
  [⟨1767766952966367, 10000000000000000, [0, 0, 0, 0, 0]⟩],
  [⟨3061862178478966, 10000000000000000, [1, 0, 0, 0, 0]⟩],
  [⟨3061862178478966, 10000000000000000, [0, 1, 0, 0, 0]⟩],
  [⟨3061862178478966, 10000000000000000, [0, 0, 1, 0, 0]⟩],
  [⟨3061862178478966, 10000000000000000, [0, 0, 0, 1, 0]⟩],
  [⟨3061862178478966, 10000000000000000, [0, 0, 0, 0, 1]⟩],
  [⟨5303300858899102, 10000000000000000, [1, 1, 0, 0, 0]⟩],
  [⟨5303300858899102, 10000000000000000, [1, 0, 1, 0, 0]⟩],
  [⟨5303300858899102, 10000000000000000, [0, 1, 1, 0, 0]⟩],
  [⟨5303300858899102, 10000000000000000, [1, 0, 0, 1, 0]⟩],
  [⟨5303300858899102, 10000000000000000, [0, 1, 0, 1, 0]⟩],
  [⟨5303300858899102, 10000000000000000, [0, 0, 1, 1, 0]⟩],
  [⟨5303300858899102, 10000000000000000, [1, 0, 0, 0, 1]⟩],
  [⟨5303300858899102, 10000000000000000, [0, 1, 0, 0, 1]⟩],
  [⟨5303300858899102, 10000000000000000, [0, 0, 1, 0, 1]⟩],
  [⟨5303300858899102, 10000000000000000, [0, 0, 0, 1, 1]⟩],
  [⟨-1976423537605237, 10000000000000000, [0, 0, 0, 0, 0]⟩, ⟨592927061281571, 1000000000000000, [2, 0, 0, 0, 0]⟩],
  [⟨-1976423537605237, 10000000000000000, [0, 0, 0, 0, 0]⟩, ⟨592927061281571, 1000000000000000, [0, 2, 0, 0, 0]⟩],
  [⟨-1976423537605237, 10000000000000000, [0, 0, 0, 0, 0]⟩, ⟨592927061281571, 1000000000000000, [0, 0, 2, 0, 0]⟩],
  [⟨-1976423537605237, 10000000000000000, [0, 0, 0, 0, 0]⟩, ⟨592927061281571, 1000000000000000, [0, 0, 0, 2, 0]⟩],
  [⟨-1976423537605237, 10000000000000000, [0, 0, 0, 0, 0]⟩, ⟨592927061281571, 1000000000000000, [0, 0, 0, 0, 2]⟩]]

/-- computeInterpolationMatrices.py:5346-5405. -/
def modalMax5p3 : List Poly := [
  [⟨1767766952966367, 10000000000000000, [0, 0, 0, 0, 0]⟩],
  [⟨3061862178478966, 10000000000000000, [1, 0, 0, 0, 0]⟩],
  [⟨3061862178478966, 10000000000000000, [0, 1, 0, 0, 0]⟩],
  [⟨3061862178478966, 10000000000000000, [0, 0, 1, 0, 0]⟩],
  [⟨3061862178478966, 10000000000000000, [0, 0, 0, 1, 0]⟩],
  [⟨3061862178478966, 10000000000000000, [0, 0, 0, 0, 1]⟩],
  [⟨5303300858899102, 10000000000000000, [1, 1, 0, 0, 0]⟩],
  [⟨5303300858899102, 10000000000000000, [1, 0, 1, 0, 0]⟩],
  [⟨5303300858899102, 10000000000000000, [0, 1, 1, 0, 0]⟩],
  [⟨5303300858899102, 10000000000000000, [1, 0, 0, 1, 0]⟩],
  [⟨5303300858899102, 10000000000000000, [0, 1, 0, 1, 0]⟩],
  [⟨5303300858899102, 10000000000000000, [0, 0, 1, 1, 0]⟩],
  [⟨5303300858899102, 10000000000000000, [1, 0, 0, 0, 1]⟩],
  [⟨5303300858899102, 10000000000000000, [0, 1, 0, 0, 1]⟩],
  [⟨5303300858899102, 10000000000000000, [0, 0, 1, 0, 1]⟩],
  [⟨5303300858899102, 10000000000000000, [0, 0, 0, 1, 1]⟩],
  [⟨-1976423537605237, 10000000000000000, [0, 0, 0, 0, 0]⟩, ⟨592927061281571, 1000000000000000, [2, 0, 0, 0, 0]⟩],
  [⟨-1976423537605237, 10000000000000000, [0, 0, 0, 0, 0]⟩, ⟨592927061281571, 1000000000000000, [0, 2, 0, 0, 0]⟩],
  [⟨-1976423537605237, 10000000000000000, [0, 0, 0, 0, 0]⟩, ⟨592927061281571, 1000000000000000, [0, 0, 2, 0, 0]⟩],
  [⟨-1976423537605237, 10000000000000000, [0, 0, 0, 0, 0]⟩, ⟨592927061281571, 1000000000000000, [0, 0, 0, 2, 0]⟩],
  [⟨-1976423537605237, 10000000000000000, [0, 0, 0, 0, 0]⟩, ⟨592927061281571, 1000000000000000, [0, 0, 0, 0, 2]⟩],
  [⟨9185586535436896, 10000000000000000, [1, 1, 1, 0, 0]⟩],
  [⟨9185586535436896, 10000000000000000, [1, 1, 0, 1, 0]⟩],
  [⟨9185586535436896, 10000000000000000, [1, 0, 1, 1, 0]⟩],
  [⟨9185586535436896, 10000000000000000, [0, 1, 1, 1, 0]⟩],
  [⟨9185586535436896, 10000000000000000, [1, 1, 0, 0, 1]⟩],
  [⟨9185586535436896, 10000000000000000, [1, 0, 1, 0, 1]⟩],
  [⟨9185586535436896, 10000000000000000, [0, 1, 1, 0, 1]⟩],
  [⟨9185586535436896, 10000000000000000, [1, 0, 0, 1, 1]⟩],
  [⟨9185586535436896, 10000000000000000, [0, 1, 0, 1, 1]⟩],
  [⟨9185586535436896, 10000000000000000, [0, 0, 1, 1, 1]⟩],
  [⟨-3423265984407291, 10000000000000000, [0, 1, 0, 0, 0]⟩, ⟨1026979795322187, 1000000000000000, [2, 1, 0, 0, 0]⟩],
  [⟨-3423265984407291, 10000000000000000, [1, 0, 0, 0, 0]⟩, ⟨1026979795322187, 1000000000000000, [1, 2, 0, 0, 0]⟩],
  [⟨-3423265984407291, 10000000000000000, [0, 0, 1, 0, 0]⟩, ⟨1026979795322187, 1000000000000000, [2, 0, 1, 0, 0]⟩],
  [⟨-3423265984407291, 10000000000000000, [0, 0, 1, 0, 0]⟩, ⟨1026979795322187, 1000000000000000, [0, 2, 1, 0, 0]⟩],
  [⟨-3423265984407291, 10000000000000000, [1, 0, 0, 0, 0]⟩, ⟨1026979795322187, 1000000000000000, [1, 0, 2, 0, 0]⟩],
  [⟨-3423265984407291, 10000000000000000, [0, 1, 0, 0, 0]⟩, ⟨1026979795322187, 1000000000000000, [0, 1, 2, 0, 0]⟩],
  [⟨-3423265984407291, 10000000000000000, [0, 0, 0, 1, 0]⟩, ⟨1026979795322187, 1000000000000000, [2, 0, 0, 1, 0]⟩],
  [⟨-3423265984407291, 10000000000000000, [0, 0, 0, 1, 0]⟩, ⟨1026979795322187, 1000000000000000, [0, 2, 0, 1, 0]⟩],
  [⟨-3423265984407291, 10000000000000000, [0, 0, 0, 1, 0]⟩, ⟨1026979795322187, 1000000000000000, [0, 0, 2, 1, 0]⟩],
  [⟨-3423265984407291, 10000000000000000, [1, 0, 0, 0, 0]⟩, ⟨1026979795322187, 1000000000000000, [1, 0, 0, 2, 0]⟩],
  [⟨-3423265984407291, 10000000000000000, [0, 1, 0, 0, 0]⟩, ⟨1026979795322187, 1000000000000000, [0, 1, 0, 2, 0]⟩],
  [⟨-3423265984407291, 10000000000000000, [0, 0, 1, 0, 0]⟩, ⟨1026979795322187, 1000000000000000, [0, 0, 1, 2, 0]⟩],
  [⟨-3423265984407291, 10000000000000000, [0, 0, 0, 0, 1]⟩, ⟨1026979795322187, 1000000000000000, [2, 0, 0, 0, 1]⟩],
  [⟨-3423265984407291, 10000000000000000, [0, 0, 0, 0, 1]⟩, ⟨1026979795322187, 1000000000000000, [0, 2, 0, 0, 1]⟩],
  [⟨-3423265984407291, 10000000000000000, [0, 0, 0, 0, 1]⟩, ⟨1026979795322187, 1000000000000000, [0, 0, 2, 0, 1]⟩],
  [⟨-3423265984407291, 10000000000000000, [0, 0, 0, 0, 1]⟩, ⟨1026979795322187, 1000000000000000, [0, 0, 0, 2, 1]⟩],
  [⟨-3423265984407291, 10000000000000000, [1, 0, 0, 0, 0]⟩, ⟨1026979795322187, 1000000000000000, [1, 0, 0, 0, 2]⟩],
  [⟨-3423265984407291, 10000000000000000, [0, 1, 0, 0, 0]⟩, ⟨1026979795322187, 1000000000000000, [0, 1, 0, 0, 2]⟩],
  [⟨-3423265984407291, 10000000000000000, [0, 0, 1, 0, 0]⟩, ⟨1026979795322187, 1000000000000000, [0, 0, 1, 0, 2]⟩],
  [⟨-3423265984407291, 10000000000000000, [0, 0, 0, 1, 0]⟩, ⟨1026979795322187, 1000000000000000, [0, 0, 0, 1, 2]⟩],
  [⟨-701560760020114, 1000000000000000, [1, 0, 0, 0, 0]⟩, ⟨1169267933366857, 1000000000000000, [3, 0, 0, 0, 0]⟩],
  [⟨-701560760020114, 1000000000000000, [0, 1, 0, 0, 0]⟩, ⟨1169267933366857, 1000000000000000, [0, 3, 0, 0, 0]⟩],
  [⟨-701560760020114, 1000000000000000, [0, 0, 1, 0, 0]⟩, ⟨1169267933366857, 1000000000000000, [0, 0, 3, 0, 0]⟩],
  [⟨-701560760020114, 1000000000000000, [0, 0, 0, 1, 0]⟩, ⟨1169267933366857, 1000000000000000, [0, 0, 0, 3, 0]⟩],
  [⟨-701560760020114, 1000000000000000, [0, 0, 0, 0, 1]⟩, ⟨1169267933366857, 1000000000000000, [0, 0, 0, 0, 3]⟩]]

/-- computeInterpolationMatrices.py:5446-5645. -/
def modalMax5p4 : List Poly := [
  [⟨1767766952966367, 10000000000000000, [0, 0, 0, 0, 0]⟩],
  [⟨3061862178478966, 10000000000000000, [1, 0, 0, 0, 0]⟩],
  [⟨3061862178478966, 10000000000000000, [0, 1, 0, 0, 0]⟩],
  [⟨3061862178478966, 10000000000000000, [0, 0, 1, 0, 0]⟩],
  [⟨3061862178478966, 10000000000000000, [0, 0, 0, 1, 0]⟩],
  [⟨3061862178478966, 10000000000000000, [0, 0, 0, 0, 1]⟩],
  [⟨5303300858899102, 10000000000000000, [1, 1, 0, 0, 0]⟩],
  [⟨5303300858899102, 10000000000000000, [1, 0, 1, 0, 0]⟩],
  [⟨5303300858899102, 10000000000000000, [0, 1, 1, 0, 0]⟩],
  [⟨5303300858899102, 10000000000000000, [1, 0, 0, 1, 0]⟩],
  [⟨5303300858899102, 10000000000000000, [0, 1, 0, 1, 0]⟩],
  [⟨5303300858899102, 10000000000000000, [0, 0, 1, 1, 0]⟩],
  [⟨5303300858899102, 10000000000000000, [1, 0, 0, 0, 1]⟩],
  [⟨5303300858899102, 10000000000000000, [0, 1, 0, 0, 1]⟩],
  [⟨5303300858899102, 10000000000000000, [0, 0, 1, 0, 1]⟩],
  [⟨5303300858899102, 10000000000000000, [0, 0, 0, 1, 1]⟩],
  [⟨-1976423537605237, 10000000000000000, [0, 0, 0, 0, 0]⟩, ⟨592927061281571, 1000000000000000, [2, 0, 0, 0, 0]⟩],
  [⟨-1976423537605237, 10000000000000000, [0, 0, 0, 0, 0]⟩, ⟨592927061281571, 1000000000000000, [0, 2, 0, 0, 0]⟩],
  [⟨-1976423537605237, 10000000000000000, [0, 0, 0, 0, 0]⟩, ⟨592927061281571, 1000000000000000, [0, 0, 2, 0, 0]⟩],
  [⟨-1976423537605237, 10000000000000000, [0, 0, 0, 0, 0]⟩, ⟨592927061281571, 1000000000000000, [0, 0, 0, 2, 0]⟩],
  [⟨-1976423537605237, 10000000000000000, [0, 0, 0, 0, 0]⟩, ⟨592927061281571, 1000000000000000, [0, 0, 0, 0, 2]⟩],
  [⟨9185586535436896, 10000000000000000, [1, 1, 1, 0, 0]⟩],
  [⟨9185586535436896, 10000000000000000, [1, 1, 0, 1, 0]⟩],
  [⟨9185586535436896, 10000000000000000, [1, 0, 1, 1, 0]⟩],
  [⟨9185586535436896, 10000000000000000, [0, 1, 1, 1, 0]⟩],
  [⟨9185586535436896, 10000000000000000, [1, 1, 0, 0, 1]⟩],
  [⟨9185586535436896, 10000000000000000, [1, 0, 1, 0, 1]⟩],
  [⟨9185586535436896, 10000000000000000, [0, 1, 1, 0, 1]⟩],
  [⟨9185586535436896, 10000000000000000, [1, 0, 0, 1, 1]⟩],
  [⟨9185586535436896, 10000000000000000, [0, 1, 0, 1, 1]⟩],
  [⟨9185586535436896, 10000000000000000, [0, 0, 1, 1, 1]⟩],
  [⟨-3423265984407291, 10000000000000000, [0, 1, 0, 0, 0]⟩, ⟨1026979795322187, 1000000000000000, [2, 1, 0, 0, 0]⟩],
  [⟨-3423265984407291, 10000000000000000, [1, 0, 0, 0, 0]⟩, ⟨1026979795322187, 1000000000000000, [1, 2, 0, 0, 0]⟩],
  [⟨-3423265984407291, 10000000000000000, [0, 0, 1, 0, 0]⟩, ⟨1026979795322187, 1000000000000000, [2, 0, 1, 0, 0]⟩],
  [⟨-3423265984407291, 10000000000000000, [0, 0, 1, 0, 0]⟩, ⟨1026979795322187, 1000000000000000, [0, 2, 1, 0, 0]⟩],
  [⟨-3423265984407291, 10000000000000000, [1, 0, 0, 0, 0]⟩, ⟨1026979795322187, 1000000000000000, [1, 0, 2, 0, 0]⟩],
  [⟨-3423265984407291, 10000000000000000, [0, 1, 0, 0, 0]⟩, ⟨1026979795322187, 1000000000000000, [0, 1, 2, 0, 0]⟩],
  [⟨-3423265984407291, 10000000000000000, [0, 0, 0, 1, 0]⟩, ⟨1026979795322187, 1000000000000000, [2, 0, 0, 1, 0]⟩],
  [⟨-3423265984407291, 10000000000000000, [0, 0, 0, 1, 0]⟩, ⟨1026979795322187, 1000000000000000, [0, 2, 0, 1, 0]⟩],
  [⟨-3423265984407291, 10000000000000000, [0, 0, 0, 1, 0]⟩, ⟨1026979795322187, 1000000000000000, [0, 0, 2, 1, 0]⟩],
  [⟨-3423265984407291, 10000000000000000, [1, 0, 0, 0, 0]⟩, ⟨1026979795322187, 1000000000000000, [1, 0, 0, 2, 0]⟩],
  [⟨-3423265984407291, 10000000000000000, [0, 1, 0, 0, 0]⟩, ⟨1026979795322187, 1000000000000000, [0, 1, 0, 2, 0]⟩],
  [⟨-3423265984407291, 10000000000000000, [0, 0, 1, 0, 0]⟩, ⟨1026979795322187, 1000000000000000, [0, 0, 1, 2, 0]⟩],
  [⟨-3423265984407291, 10000000000000000, [0, 0, 0, 0, 1]⟩, ⟨1026979795322187, 1000000000000000, [2, 0, 0, 0, 1]⟩],
  [⟨-3423265984407291, 10000000000000000, [0, 0, 0, 0, 1]⟩, ⟨1026979795322187, 1000000000000000, [0, 2, 0, 0, 1]⟩],
  [⟨-3423265984407291, 10000000000000000, [0, 0, 0, 0, 1]⟩, ⟨1026979795322187, 1000000000000000, [0, 0, 2, 0, 1]⟩],
  [⟨-3423265984407291, 10000000000000000, [0, 0, 0, 0, 1]⟩, ⟨1026979795322187, 1000000000000000, [0, 0, 0, 2, 1]⟩],
  [⟨-3423265984407291, 10000000000000000, [1, 0, 0, 0, 0]⟩, ⟨1026979795322187, 1000000000000000, [1, 0, 0, 0, 2]⟩],
  [⟨-3423265984407291, 10000000000000000, [0, 1, 0, 0, 0]⟩, ⟨1026979795322187, 1000000000000000, [0, 1, 0, 0, 2]⟩],
  [⟨-3423265984407291, 10000000000000000, [0, 0, 1, 0, 0]⟩, ⟨1026979795322187, 1000000000000000, [0, 0, 1, 0, 2]⟩],
  [⟨-3423265984407291, 10000000000000000, [0, 0, 0, 1, 0]⟩, ⟨1026979795322187, 1000000000000000, [0, 0, 0, 1, 2]⟩],
  [⟨-701560760020114, 1000000000000000, [1, 0, 0, 0, 0]⟩, ⟨1169267933366857, 1000000000000000, [3, 0, 0, 0, 0]⟩],
  [⟨-701560760020114, 1000000000000000, [0, 1, 0, 0, 0]⟩, ⟨1169267933366857, 1000000000000000, [0, 3, 0, 0, 0]⟩],
  [⟨-701560760020114, 1000000000000000, [0, 0, 1, 0, 0]⟩, ⟨1169267933366857, 1000000000000000, [0, 0, 3, 0, 0]⟩],
  [⟨-701560760020114, 1000000000000000, [0, 0, 0, 1, 0]⟩, ⟨1169267933366857, 1000000000000000, [0, 0, 0, 3, 0]⟩],
  [⟨-701560760020114, 1000000000000000, [0, 0, 0, 0, 1]⟩, ⟨1169267933366857, 1000000000000000, [0, 0, 0, 0, 3]⟩],
  [⟨1590990257669732, 1000000000000000, [1, 1, 1, 1, 0]⟩],
  [⟨1590990257669732, 1000000000000000, [1, 1, 1, 0, 1]⟩],
  [⟨1590990257669732, 1000000000000000, [1, 1, 0, 1, 1]⟩],
  [⟨1590990257669732, 1000000000000000, [1, 0, 1, 1, 1]⟩],
  [⟨1590990257669732, 1000000000000000, [0, 1, 1, 1, 1]⟩],
  [⟨-5929270612815707, 10000000000000000, [0, 1, 1, 0, 0]⟩, ⟨1778781183844712, 1000000000000000, [2, 1, 1, 0, 0]⟩],
  [⟨-5929270612815707, 10000000000000000, [1, 0, 1, 0, 0]⟩, ⟨1778781183844712, 1000000000000000, [1, 2, 1, 0, 0]⟩],
  [⟨-5929270612815707, 10000000000000000, [1, 1, 0, 0, 0]⟩, ⟨1778781183844712, 1000000000000000, [1, 1, 2, 0, 0]⟩],
  [⟨-5929270612815707, 10000000000000000, [0, 1, 0, 1, 0]⟩, ⟨1778781183844712, 1000000000000000, [2, 1, 0, 1, 0]⟩],
  [⟨-5929270612815707, 10000000000000000, [1, 0, 0, 1, 0]⟩, ⟨1778781183844712, 1000000000000000, [1, 2, 0, 1, 0]⟩],
  [⟨-5929270612815707, 10000000000000000, [0, 0, 1, 1, 0]⟩, ⟨1778781183844712, 1000000000000000, [2, 0, 1, 1, 0]⟩],
  [⟨-5929270612815707, 10000000000000000, [0, 0, 1, 1, 0]⟩, ⟨1778781183844712, 1000000000000000, [0, 2, 1, 1, 0]⟩],
  [⟨-5929270612815707, 10000000000000000, [1, 0, 0, 1, 0]⟩, ⟨1778781183844712, 1000000000000000, [1, 0, 2, 1, 0]⟩],
  [⟨-5929270612815707, 10000000000000000, [0, 1, 0, 1, 0]⟩, ⟨1778781183844712, 1000000000000000, [0, 1, 2, 1, 0]⟩],
  [⟨-5929270612815707, 10000000000000000, [1, 1, 0, 0, 0]⟩, ⟨1778781183844712, 1000000000000000, [1, 1, 0, 2, 0]⟩],
  [⟨-5929270612815707, 10000000000000000, [1, 0, 1, 0, 0]⟩, ⟨1778781183844712, 1000000000000000, [1, 0, 1, 2, 0]⟩],
  [⟨-5929270612815707, 10000000000000000, [0, 1, 1, 0, 0]⟩, ⟨1778781183844712, 1000000000000000, [0, 1, 1, 2, 0]⟩],
  [⟨-5929270612815707, 10000000000000000, [0, 1, 0, 0, 1]⟩, ⟨1778781183844712, 1000000000000000, [2, 1, 0, 0, 1]⟩],
  [⟨-5929270612815707, 10000000000000000, [1, 0, 0, 0, 1]⟩, ⟨1778781183844712, 1000000000000000, [1, 2, 0, 0, 1]⟩],
  [⟨-5929270612815707, 10000000000000000, [0, 0, 1, 0, 1]⟩, ⟨1778781183844712, 1000000000000000, [2, 0, 1, 0, 1]⟩],
  [⟨-5929270612815707, 10000000000000000, [0, 0, 1, 0, 1]⟩, ⟨1778781183844712, 1000000000000000, [0, 2, 1, 0, 1]⟩],
  [⟨-5929270612815707, 10000000000000000, [1, 0, 0, 0, 1]⟩, ⟨1778781183844712, 1000000000000000, [1, 0, 2, 0, 1]⟩],
  [⟨-5929270612815707, 10000000000000000, [0, 1, 0, 0, 1]⟩, ⟨1778781183844712, 1000000000000000, [0, 1, 2, 0, 1]⟩],
  [⟨-5929270612815707, 10000000000000000, [0, 0, 0, 1, 1]⟩, ⟨1778781183844712, 1000000000000000, [2, 0, 0, 1, 1]⟩],
  [⟨-5929270612815707, 10000000000000000, [0, 0, 0, 1, 1]⟩, ⟨1778781183844712, 1000000000000000, [0, 2, 0, 1, 1]⟩],
  [⟨-5929270612815707, 10000000000000000, [0, 0, 0, 1, 1]⟩, ⟨1778781183844712, 1000000000000000, [0, 0, 2, 1, 1]⟩],
  [⟨-5929270612815707, 10000000000000000, [1, 0, 0, 0, 1]⟩, ⟨1778781183844712, 1000000000000000, [1, 0, 0, 2, 1]⟩],
  [⟨-5929270612815707, 10000000000000000, [0, 1, 0, 0, 1]⟩, ⟨1778781183844712, 1000000000000000, [0, 1, 0, 2, 1]⟩],
  [⟨-5929270612815707, 10000000000000000, [0, 0, 1, 0, 1]⟩, ⟨1778781183844712, 1000000000000000, [0, 0, 1, 2, 1]⟩],
  [⟨-5929270612815707, 10000000000000000, [1, 1, 0, 0, 0]⟩, ⟨1778781183844712, 1000000000000000, [1, 1, 0, 0, 2]⟩],
  [⟨-5929270612815707, 10000000000000000, [1, 0, 1, 0, 0]⟩, ⟨1778781183844712, 1000000000000000, [1, 0, 1, 0, 2]⟩],
  [⟨-5929270612815707, 10000000000000000, [0, 1, 1, 0, 0]⟩, ⟨1778781183844712, 1000000000000000, [0, 1, 1, 0, 2]⟩],
  [⟨-5929270612815707, 10000000000000000, [1, 0, 0, 1, 0]⟩, ⟨1778781183844712, 1000000000000000, [1, 0, 0, 1, 2]⟩],
  [⟨-5929270612815707, 10000000000000000, [0, 1, 0, 1, 0]⟩, ⟨1778781183844712, 1000000000000000, [0, 1, 0, 1, 2]⟩],
  [⟨-5929270612815707, 10000000000000000, [0, 0, 1, 1, 0]⟩, ⟨1778781183844712, 1000000000000000, [0, 0, 1, 1, 2]⟩],
  [⟨2209708691207962, 10000000000000000, [0, 0, 0, 0, 0]⟩, ⟨-6629126073623886, 10000000000000000, [0, 2, 0, 0, 0]⟩, ⟨-6629126073623886, 10000000000000000, [2, 0, 0, 0, 0]⟩, ⟨1988737822087165, 1000000000000000, [2, 2, 0, 0, 0]⟩],
  [⟨2209708691207962, 10000000000000000, [0, 0, 0, 0, 0]⟩, ⟨-6629126073623886, 10000000000000000, [0, 0, 2, 0, 0]⟩, ⟨-6629126073623886, 10000000000000000, [2, 0, 0, 0, 0]⟩, ⟨1988737822087165, 1000000000000000, [2, 0, 2, 0, 0]⟩],
  [⟨2209708691207962, 10000000000000000, [0, 0, 0, 0, 0]⟩, ⟨-6629126073623886, 10000000000000000, [0, 0, 2, 0, 0]⟩, ⟨-6629126073623886, 10000000000000000, [0, 2, 0, 0, 0]⟩, ⟨1988737822087165, 1000000000000000, [0, 2, 2, 0, 0]⟩],
  [⟨2209708691207962, 10000000000000000, [0, 0, 0, 0, 0]⟩, ⟨-6629126073623886, 10000000000000000, [0, 0, 0, 2, 0]⟩, ⟨-6629126073623886, 10000000000000000, [2, 0, 0, 0, 0]⟩, ⟨1988737822087165, 1000000000000000, [2, 0, 0, 2, 0]⟩],
  [⟨2209708691207962, 10000000000000000, [0, 0, 0, 0, 0]⟩, ⟨-6629126073623886, 10000000000000000, [0, 0, 0, 2, 0]⟩, ⟨-6629126073623886, 10000000000000000, [0, 2, 0, 0, 0]⟩, ⟨1988737822087165, 1000000000000000, [0, 2, 0, 2, 0]⟩],
  [⟨2209708691207962, 10000000000000000, [0, 0, 0, 0, 0]⟩, ⟨-6629126073623886, 10000000000000000, [0, 0, 0, 2, 0]⟩, ⟨-6629126073623886, 10000000000000000, [0, 0, 2, 0, 0]⟩, ⟨1988737822087165, 1000000000000000, [0, 0, 2, 2, 0]⟩],
  [⟨2209708691207962, 10000000000000000, [0, 0, 0, 0, 0]⟩, ⟨-6629126073623886, 10000000000000000, [0, 0, 0, 0, 2]⟩, ⟨-6629126073623886, 10000000000000000, [2, 0, 0, 0, 0]⟩, ⟨1988737822087165, 1000000000000000, [2, 0, 0, 0, 2]⟩],
  [⟨2209708691207962, 10000000000000000, [0, 0, 0, 0, 0]⟩, ⟨-6629126073623886, 10000000000000000, [0, 0, 0, 0, 2]⟩, ⟨-6629126073623886, 10000000000000000, [0, 2, 0, 0, 0]⟩, ⟨1988737822087165, 1000000000000000, [0, 2, 0, 0, 2]⟩],
  [⟨2209708691207962, 10000000000000000, [0, 0, 0, 0, 0]⟩, ⟨-6629126073623886, 10000000000000000, [0, 0, 0, 0, 2]⟩, ⟨-6629126073623886, 10000000000000000, [0, 0, 2, 0, 0]⟩, ⟨1988737822087165, 1000000000000000, [0, 0, 2, 0, 2]⟩],
  [⟨2209708691207962, 10000000000000000, [0, 0, 0, 0, 0]⟩, ⟨-6629126073623886, 10000000000000000, [0, 0, 0, 0, 2]⟩, ⟨-6629126073623886, 10000000000000000, [0, 0, 0, 2, 0]⟩, ⟨1988737822087165, 1000000000000000, [0, 0, 0, 2, 2]⟩],
  [⟨-1215138880951473, 1000000000000000, [1, 1, 0, 0, 0]⟩, ⟨2025231468252455, 1000000000000000, [3, 1, 0, 0, 0]⟩],
  [⟨-1215138880951473, 1000000000000000, [1, 1, 0, 0, 0]⟩, ⟨2025231468252455, 1000000000000000, [1, 3, 0, 0, 0]⟩],
  [⟨-1215138880951473, 1000000000000000, [1, 0, 1, 0, 0]⟩, ⟨2025231468252455, 1000000000000000, [3, 0, 1, 0, 0]⟩],
  [⟨-1215138880951473, 1000000000000000, [0, 1, 1, 0, 0]⟩, ⟨2025231468252455, 1000000000000000, [0, 3, 1, 0, 0]⟩],
  [⟨-1215138880951473, 1000000000000000, [1, 0, 1, 0, 0]⟩, ⟨2025231468252455, 1000000000000000, [1, 0, 3, 0, 0]⟩],
  [⟨-1215138880951473, 1000000000000000, [0, 1, 1, 0, 0]⟩, ⟨2025231468252455, 1000000000000000, [0, 1, 3, 0, 0]⟩],
  [⟨-1215138880951473, 1000000000000000, [1, 0, 0, 1, 0]⟩, ⟨2025231468252455, 1000000000000000, [3, 0, 0, 1, 0]⟩],
  [⟨-1215138880951473, 1000000000000000, [0, 1, 0, 1, 0]⟩, ⟨2025231468252455, 1000000000000000, [0, 3, 0, 1, 0]⟩],
  [⟨-1215138880951473, 1000000000000000, [0, 0, 1, 1, 0]⟩, ⟨2025231468252455, 1000000000000000, [0, 0, 3, 1, 0]⟩],
  [⟨-1215138880951473, 1000000000000000, [1, 0, 0, 1, 0]⟩, ⟨2025231468252455, 1000000000000000, [1, 0, 0, 3, 0]⟩],
  [⟨-1215138880951473, 1000000000000000, [0, 1, 0, 1, 0]⟩, ⟨2025231468252455, 1000000000000000, [0, 1, 0, 3, 0]⟩],
  [⟨-1215138880951473, 1000000000000000, [0, 0, 1, 1, 0]⟩, ⟨2025231468252455, 1000000000000000, [0, 0, 1, 3, 0]⟩],
  [⟨-1215138880951473, 1000000000000000, [1, 0, 0, 0, 1]⟩, ⟨2025231468252455, 1000000000000000, [3, 0, 0, 0, 1]⟩],
  [⟨-1215138880951473, 1000000000000000, [0, 1, 0, 0, 1]⟩, ⟨2025231468252455, 1000000000000000, [0, 3, 0, 0, 1]⟩],
  [⟨-1215138880951473, 1000000000000000, [0, 0, 1, 0, 1]⟩, ⟨2025231468252455, 1000000000000000, [0, 0, 3, 0, 1]⟩],
  [⟨-1215138880951473, 1000000000000000, [0, 0, 0, 1, 1]⟩, ⟨2025231468252455, 1000000000000000, [0, 0, 0, 3, 1]⟩],
  [⟨-1215138880951473, 1000000000000000, [1, 0, 0, 0, 1]⟩, ⟨2025231468252455, 1000000000000000, [1, 0, 0, 0, 3]⟩],
  [⟨-1215138880951473, 1000000000000000, [0, 1, 0, 0, 1]⟩, ⟨2025231468252455, 1000000000000000, [0, 1, 0, 0, 3]⟩],
  [⟨-1215138880951473, 1000000000000000, [0, 0, 1, 0, 1]⟩, ⟨2025231468252455, 1000000000000000, [0, 0, 1, 0, 3]⟩],
  [⟨-1215138880951473, 1000000000000000, [0, 0, 0, 1, 1]⟩, ⟨2025231468252455, 1000000000000000, [0, 0, 0, 1, 3]⟩],
  [⟨1988737822087163, 10000000000000000, [0, 0, 0, 0, 0]⟩, ⟨-1988737822087163, 1000000000000000, [2, 0, 0, 0, 0]⟩, ⟨2320194125768356, 1000000000000000, [4, 0, 0, 0, 0]⟩],
  [⟨1988737822087163, 10000000000000000, [0, 0, 0, 0, 0]⟩, ⟨-1988737822087163, 1000000000000000, [0, 2, 0, 0, 0]⟩, ⟨2320194125768356, 1000000000000000, [0, 4, 0, 0, 0]⟩],
  [⟨1988737822087163, 10000000000000000, [0, 0, 0, 0, 0]⟩, ⟨-1988737822087163, 1000000000000000, [0, 0, 2, 0, 0]⟩, ⟨2320194125768356, 1000000000000000, [0, 0, 4, 0, 0]⟩],
  [⟨1988737822087163, 10000000000000000, [0, 0, 0, 0, 0]⟩, ⟨-1988737822087163, 1000000000000000, [0, 0, 0, 2, 0]⟩, ⟨2320194125768356, 1000000000000000, [0, 0, 0, 4, 0]⟩],
  [⟨1988737822087163, 10000000000000000, [0, 0, 0, 0, 0]⟩, ⟨-1988737822087163, 1000000000000000, [0, 0, 0, 0, 2]⟩, ⟨2320194125768356, 1000000000000000, [0, 0, 0, 0, 4]⟩]]

/-- computeInterpolationMatrices.py:5693-5693. -/
def modalSer5p0 : List Poly := [
  [⟨1767766952966367, 10000000000000000, [0, 0, 0, 0, 0]⟩]]

/-- computeInterpolationMatrices.py:5734-5769. -/
def modalSer5p1 : List Poly := [
  [⟨1767766952966367, 10000000000000000, [0, 0, 0, 0, 0]⟩],
  [⟨3061862178478966, 10000000000000000, [1, 0, 0, 0, 0]⟩],
  [⟨3061862178478966, 10000000000000000, [0, 1, 0, 0, 0]⟩],
  [⟨3061862178478966, 10000000000000000, [0, 0, 1, 0, 0]⟩],
  [⟨3061862178478966, 10000000000000000, [0, 0, 0, 1, 0]⟩],
  [⟨3061862178478966, 10000000000000000, [0, 0, 0, 0, 1]⟩],
  [⟨5303300858899102, 10000000000000000, [1, 1, 0, 0, 0]⟩],
  [⟨5303300858899102, 10000000000000000, [1, 0, 1, 0, 0]⟩],
  [⟨5303300858899102, 10000000000000000, [0, 1, 1, 0, 0]⟩],
  [⟨5303300858899102, 10000000000000000, [1, 0, 0, 1, 0]⟩],
  [⟨5303300858899102, 10000000000000000, [0, 1, 0, 1, 0]⟩],
  [⟨5303300858899102, 10000000000000000, [0, 0, 1, 1, 0]⟩],
  [⟨5303300858899102, 10000000000000000, [1, 0, 0, 0, 1]⟩],
  [⟨5303300858899102, 10000000000000000, [0, 1, 0, 0, 1]⟩],
  [⟨5303300858899102, 10000000000000000, [0, 0, 1, 0, 1]⟩],
  [⟨5303300858899102, 10000000000000000, [0, 0, 0, 1, 1]⟩],
  [⟨9185586535436896, 10000000000000000, [1, 1, 1, 0, 0]⟩],
  [⟨9185586535436896, 10000000000000000, [1, 1, 0, 1, 0]⟩],
  [⟨9185586535436896, 10000000000000000, [1, 0, 1, 1, 0]⟩],
  [⟨9185586535436896, 10000000000000000, [0, 1, 1, 1, 0]⟩],
  [⟨9185586535436896, 10000000000000000, [1, 1, 0, 0, 1]⟩],
  [⟨9185586535436896, 10000000000000000, [1, 0, 1, 0, 1]⟩],
  [⟨9185586535436896, 10000000000000000, [0, 1, 1, 0, 1]⟩],
  [⟨9185586535436896, 10000000000000000, [1, 0, 0, 1, 1]⟩],
  [⟨9185586535436896, 10000000000000000, [0, 1, 0, 1, 1]⟩],
  [⟨9185586535436896, 10000000000000000, [0, 0, 1, 1, 1]⟩],
  [⟨1590990257669732, 1000000000000000, [1, 1, 1, 1, 0]⟩],
  [⟨1590990257669732, 1000000000000000, [1, 1, 1, 0, 1]⟩],
  [⟨1590990257669732, 1000000000000000, [1, 1, 0, 1, 1]⟩],
  [⟨1590990257669732, 1000000000000000, [1, 0, 1, 1, 1]⟩],
  [⟨1590990257669732, 1000000000000000, [0, 1, 1, 1, 1]⟩],
  [⟨2755675960631069, 1000000000000000, [1, 1, 1, 1, 1]⟩]]

/-- computeInterpolationMatrices.py:5810-5940. -/
def modalSer5p2 : List Poly := [
  [⟨1767766952966367, 10000000000000000, [0, 0, 0, 0, 0]⟩],
  [⟨3061862178478966, 10000000000000000, [1, 0, 0, 0, 0]⟩],
  [⟨3061862178478966, 10000000000000000, [0, 1, 0, 0, 0]⟩],
  [⟨3061862178478966, 10000000000000000, [0, 0, 1, 0, 0]⟩],
  [⟨3061862178478966, 10000000000000000, [0, 0, 0, 1, 0]⟩],
  [⟨3061862178478966, 10000000000000000, [0, 0, 0, 0, 1]⟩],
  [⟨5303300858899102, 10000000000000000, [1, 1, 0, 0, 0]⟩],
  [⟨5303300858899102, 10000000000000000, [1, 0, 1, 0, 0]⟩],
  [⟨5303300858899102, 10000000000000000, [0, 1, 1, 0, 0]⟩],
  [⟨5303300858899102, 10000000000000000, [1, 0, 0, 1, 0]⟩],
  [⟨5303300858899102, 10000000000000000, [0, 1, 0, 1, 0]⟩],
  [⟨5303300858899102, 10000000000000000, [0, 0, 1, 1, 0]⟩],
  [⟨5303300858899102, 10000000000000000, [1, 0, 0, 0, 1]⟩],
  [⟨5303300858899102, 10000000000000000, [0, 1, 0, 0, 1]⟩],
  [⟨5303300858899102, 10000000000000000, [0, 0, 1, 0, 1]⟩],
  [⟨5303300858899102, 10000000000000000, [0, 0, 0, 1, 1]⟩],
  [⟨-1976423537605237, 10000000000000000, [0, 0, 0, 0, 0]⟩, ⟨592927061281571, 1000000000000000, [2, 0, 0, 0, 0]⟩],
  [⟨-1976423537605237, 10000000000000000, [0, 0, 0, 0, 0]⟩, ⟨592927061281571, 1000000000000000, [0, 2, 0, 0, 0]⟩],
  [⟨-1976423537605237, 10000000000000000, [0, 0, 0, 0, 0]⟩, ⟨592927061281571, 1000000000000000, [0, 0, 2, 0, 0]⟩],
  [⟨-1976423537605237, 10000000000000000, [0, 0, 0, 0, 0]⟩, ⟨592927061281571, 1000000000000000, [0, 0, 0, 2, 0]⟩],
  [⟨-1976423537605237, 10000000000000000, [0, 0, 0, 0, 0]⟩, ⟨592927061281571, 1000000000000000, [0, 0, 0, 0, 2]⟩],
  [⟨9185586535436896, 10000000000000000, [1, 1, 1, 0, 0]⟩],
  [⟨9185586535436896, 10000000000000000, [1, 1, 0, 1, 0]⟩],
  [⟨9185586535436896, 10000000000000000, [1, 0, 1, 1, 0]⟩],
  [⟨9185586535436896, 10000000000000000, [0, 1, 1, 1, 0]⟩],
  [⟨9185586535436896, 10000000000000000, [1, 1, 0, 0, 1]⟩],
  [⟨9185586535436896, 10000000000000000, [1, 0, 1, 0, 1]⟩],
  [⟨9185586535436896, 10000000000000000, [0, 1, 1, 0, 1]⟩],
  [⟨9185586535436896, 10000000000000000, [1, 0, 0, 1, 1]⟩],
  [⟨9185586535436896, 10000000000000000, [0, 1, 0, 1, 1]⟩],
  [⟨9185586535436896, 10000000000000000, [0, 0, 1, 1, 1]⟩],
  [⟨-3423265984407291, 10000000000000000, [0, 1, 0, 0, 0]⟩, ⟨1026979795322187, 1000000000000000, [2, 1, 0, 0, 0]⟩],
  [⟨-3423265984407291, 10000000000000000, [1, 0, 0, 0, 0]⟩, ⟨1026979795322187, 1000000000000000, [1, 2, 0, 0, 0]⟩],
  [⟨-3423265984407291, 10000000000000000, [0, 0, 1, 0, 0]⟩, ⟨1026979795322187, 1000000000000000, [2, 0, 1, 0, 0]⟩],
  [⟨-3423265984407291, 10000000000000000, [0, 0, 1, 0, 0]⟩, ⟨1026979795322187, 1000000000000000, [0, 2, 1, 0, 0]⟩],
  [⟨-3423265984407291, 10000000000000000, [1, 0, 0, 0, 0]⟩, ⟨1026979795322187, 1000000000000000, [1, 0, 2, 0, 0]⟩],
  [⟨-3423265984407291, 10000000000000000, [0, 1, 0, 0, 0]⟩, ⟨1026979795322187, 1000000000000000, [0, 1, 2, 0, 0]⟩],
  [⟨-3423265984407291, 10000000000000000, [0, 0, 0, 1, 0]⟩, ⟨1026979795322187, 1000000000000000, [2, 0, 0, 1, 0]⟩],
  [⟨-3423265984407291, 10000000000000000, [0, 0, 0, 1, 0]⟩, ⟨1026979795322187, 1000000000000000, [0, 2, 0, 1, 0]⟩],
  [⟨-3423265984407291, 10000000000000000, [0, 0, 0, 1, 0]⟩, ⟨1026979795322187, 1000000000000000, [0, 0, 2, 1, 0]⟩],
  [⟨-3423265984407291, 10000000000000000, [1, 0, 0, 0, 0]⟩, ⟨1026979795322187, 1000000000000000, [1, 0, 0, 2, 0]⟩],
  [⟨-3423265984407291, 10000000000000000, [0, 1, 0, 0, 0]⟩, ⟨1026979795322187, 1000000000000000, [0, 1, 0, 2, 0]⟩],
  [⟨-3423265984407291, 10000000000000000, [0, 0, 1, 0, 0]⟩, ⟨1026979795322187, 1000000000000000, [0, 0, 1, 2, 0]⟩],
  [⟨-3423265984407291, 10000000000000000, [0, 0, 0, 0, 1]⟩, ⟨1026979795322187, 1000000000000000, [2, 0, 0, 0, 1]⟩],
  [⟨-3423265984407291, 10000000000000000, [0, 0, 0, 0, 1]⟩, ⟨1026979795322187, 1000000000000000, [0, 2, 0, 0, 1]⟩],
  [⟨-3423265984407291, 10000000000000000, [0, 0, 0, 0, 1]⟩, ⟨1026979795322187, 1000000000000000, [0, 0, 2, 0, 1]⟩],
  [⟨-3423265984407291, 10000000000000000, [0, 0, 0, 0, 1]⟩, ⟨1026979795322187, 1000000000000000, [0, 0, 0, 2, 1]⟩],
  [⟨-3423265984407291, 10000000000000000, [1, 0, 0, 0, 0]⟩, ⟨1026979795322187, 1000000000000000, [1, 0, 0, 0, 2]⟩],
  [⟨-3423265984407291, 10000000000000000, [0, 1, 0, 0, 0]⟩, ⟨1026979795322187, 1000000000000000, [0, 1, 0, 0, 2]⟩],
  [⟨-3423265984407291, 10000000000000000, [0, 0, 1, 0, 0]⟩, ⟨1026979795322187, 1000000000000000, [0, 0, 1, 0, 2]⟩],
  [⟨-3423265984407291, 10000000000000000, [0, 0, 0, 1, 0]⟩, ⟨1026979795322187, 1000000000000000, [0, 0, 0, 1, 2]⟩],
  [⟨1590990257669732, 1000000000000000, [1, 1, 1, 1, 0]⟩],
  [⟨1590990257669732, 1000000000000000, [1, 1, 1, 0, 1]⟩],
  [⟨1590990257669732, 1000000000000000, [1, 1, 0, 1, 1]⟩],
  [⟨1590990257669732, 1000000000000000, [1, 0, 1, 1, 1]⟩],
  [⟨1590990257669732, 1000000000000000, [0, 1, 1, 1, 1]⟩],
  [⟨-5929270612815707, 10000000000000000, [0, 1, 1, 0, 0]⟩, ⟨1778781183844712, 1000000000000000, [2, 1, 1, 0, 0]⟩],
  [⟨-5929270612815707, 10000000000000000, [1, 0, 1, 0, 0]⟩, ⟨1778781183844712, 1000000000000000, [1, 2, 1, 0, 0]⟩],
  [⟨-5929270612815707, 10000000000000000, [1, 1, 0, 0, 0]⟩, ⟨1778781183844712, 1000000000000000, [1, 1, 2, 0, 0]⟩],
  [⟨-5929270612815707, 10000000000000000, [0, 1, 0, 1, 0]⟩, ⟨1778781183844712, 1000000000000000, [2, 1, 0, 1, 0]⟩],
  [⟨-5929270612815707, 10000000000000000, [1, 0, 0, 1, 0]⟩, ⟨1778781183844712, 1000000000000000, [1, 2, 0, 1, 0]⟩],
  [⟨-5929270612815707, 10000000000000000, [0, 0, 1, 1, 0]⟩, ⟨1778781183844712, 1000000000000000, [2, 0, 1, 1, 0]⟩],
  [⟨-5929270612815707, 10000000000000000, [0, 0, 1, 1, 0]⟩, ⟨1778781183844712, 1000000000000000, [0, 2, 1, 1, 0]⟩],
  [⟨-5929270612815707, 10000000000000000, [1, 0, 0, 1, 0]⟩, ⟨1778781183844712, 1000000000000000, [1, 0, 2, 1, 0]⟩],
  [⟨-5929270612815707, 10000000000000000, [0, 1, 0, 1, 0]⟩, ⟨1778781183844712, 1000000000000000, [0, 1, 2, 1, 0]⟩],
  [⟨-5929270612815707, 10000000000000000, [1, 1, 0, 0, 0]⟩, ⟨1778781183844712, 1000000000000000, [1, 1, 0, 2, 0]⟩],
  [⟨-5929270612815707, 10000000000000000, [1, 0, 1, 0, 0]⟩, ⟨1778781183844712, 1000000000000000, [1, 0, 1, 2, 0]⟩],
  [⟨-5929270612815707, 10000000000000000, [0, 1, 1, 0, 0]⟩, ⟨1778781183844712, 1000000000000000, [0, 1, 1, 2, 0]⟩],
  [⟨-5929270612815707, 10000000000000000, [0, 1, 0, 0, 1]⟩, ⟨1778781183844712, 1000000000000000, [2, 1, 0, 0, 1]⟩],
  [⟨-5929270612815707, 10000000000000000, [1, 0, 0, 0, 1]⟩, ⟨1778781183844712, 1000000000000000, [1, 2, 0, 0, 1]⟩],
  [⟨-5929270612815707, 10000000000000000, [0, 0, 1, 0, 1]⟩, ⟨1778781183844712, 1000000000000000, [2, 0, 1, 0, 1]⟩],
  [⟨-5929270612815707, 10000000000000000, [0, 0, 1, 0, 1]⟩, ⟨1778781183844712, 1000000000000000, [0, 2, 1, 0, 1]⟩],
  [⟨-5929270612815707, 10000000000000000, [1, 0, 0, 0, 1]⟩, ⟨1778781183844712, 1000000000000000, [1, 0, 2, 0, 1]⟩],
  [⟨-5929270612815707, 10000000000000000, [0, 1, 0, 0, 1]⟩, ⟨1778781183844712, 1000000000000000, [0, 1, 2, 0, 1]⟩],
  [⟨-5929270612815707, 10000000000000000, [0, 0, 0, 1, 1]⟩, ⟨1778781183844712, 1000000000000000, [2, 0, 0, 1, 1]⟩],
  [⟨-5929270612815707, 10000000000000000, [0, 0, 0, 1, 1]⟩, ⟨1778781183844712, 1000000000000000, [0, 2, 0, 1, 1]⟩],
  [⟨-5929270612815707, 10000000000000000, [0, 0, 0, 1, 1]⟩, ⟨1778781183844712, 1000000000000000, [0, 0, 2, 1, 1]⟩],
  [⟨-5929270612815707, 10000000000000000, [1, 0, 0, 0, 1]⟩, ⟨1778781183844712, 1000000000000000, [1, 0, 0, 2, 1]⟩],
  [⟨-5929270612815707, 10000000000000000, [0, 1, 0, 0, 1]⟩, ⟨1778781183844712, 1000000000000000, [0, 1, 0, 2, 1]⟩],
  [⟨-5929270612815707, 10000000000000000, [0, 0, 1, 0, 1]⟩, ⟨1778781183844712, 1000000000000000, [0, 0, 1, 2, 1]⟩],
  [⟨-5929270612815707, 10000000000000000, [1, 1, 0, 0, 0]⟩, ⟨1778781183844712, 1000000000000000, [1, 1, 0, 0, 2]⟩],
  [⟨-5929270612815707, 10000000000000000, [1, 0, 1, 0, 0]⟩, ⟨1778781183844712, 1000000000000000, [1, 0, 1, 0, 2]⟩],
  [⟨-5929270612815707, 10000000000000000, [0, 1, 1, 0, 0]⟩, ⟨1778781183844712, 1000000000000000, [0, 1, 1, 0, 2]⟩],
  [⟨-5929270612815707, 10000000000000000, [1, 0, 0, 1, 0]⟩, ⟨1778781183844712, 1000000000000000, [1, 0, 0, 1, 2]⟩],
  [⟨-5929270612815707, 10000000000000000, [0, 1, 0, 1, 0]⟩, ⟨1778781183844712, 1000000000000000, [0, 1, 0, 1, 2]⟩],
  [⟨-5929270612815707, 10000000000000000, [0, 0, 1, 1, 0]⟩, ⟨1778781183844712, 1000000000000000, [0, 0, 1, 1, 2]⟩],
  [⟨2755675960631069, 1000000000000000, [1, 1, 1, 1, 1]⟩],
  [⟨-1026979795322186, 1000000000000000, [0, 1, 1, 1, 0]⟩, ⟨3080939385966559, 1000000000000000, [2, 1, 1, 1, 0]⟩],
  [⟨-1026979795322186, 1000000000000000, [1, 0, 1, 1, 0]⟩, ⟨3080939385966559, 1000000000000000, [1, 2, 1, 1, 0]⟩],
  [⟨-1026979795322186, 1000000000000000, [1, 1, 0, 1, 0]⟩, ⟨3080939385966559, 1000000000000000, [1, 1, 2, 1, 0]⟩],
  [⟨-1026979795322186, 1000000000000000, [1, 1, 1, 0, 0]⟩, ⟨3080939385966559, 1000000000000000, [1, 1, 1, 2, 0]⟩],
  [⟨-1026979795322186, 1000000000000000, [0, 1, 1, 0, 1]⟩, ⟨3080939385966559, 1000000000000000, [2, 1, 1, 0, 1]⟩],
  [⟨-1026979795322186, 1000000000000000, [1, 0, 1, 0, 1]⟩, ⟨3080939385966559, 1000000000000000, [1, 2, 1, 0, 1]⟩],
  [⟨-1026979795322186, 1000000000000000, [1, 1, 0, 0, 1]⟩, ⟨3080939385966559, 1000000000000000, [1, 1, 2, 0, 1]⟩],
  [⟨-1026979795322186, 1000000000000000, [0, 1, 0, 1, 1]⟩, ⟨3080939385966559, 1000000000000000, [2, 1, 0, 1, 1]⟩],
  [⟨-1026979795322186, 1000000000000000, [1, 0, 0, 1, 1]⟩, ⟨3080939385966559, 1000000000000000, [1, 2, 0, 1, 1]⟩],
  [⟨-1026979795322186, 1000000000000000, [0, 0, 1, 1, 1]⟩, ⟨3080939385966559, 1000000000000000, [2, 0, 1, 1, 1]⟩],
  [⟨-1026979795322186, 1000000000000000, [0, 0, 1, 1, 1]⟩, ⟨3080939385966559, 1000000000000000, [0, 2, 1, 1, 1]⟩],
  [⟨-1026979795322186, 1000000000000000, [1, 0, 0, 1, 1]⟩, ⟨3080939385966559, 1000000000000000, [1, 0, 2, 1, 1]⟩],
  [⟨-1026979795322186, 1000000000000000, [0, 1, 0, 1, 1]⟩, ⟨3080939385966559, 1000000000000000, [0, 1, 2, 1, 1]⟩],
  [⟨-1026979795322186, 1000000000000000, [1, 1, 0, 0, 1]⟩, ⟨3080939385966559, 1000000000000000, [1, 1, 0, 2, 1]⟩],
  [⟨-1026979795322186, 1000000000000000, [1, 0, 1, 0, 1]⟩, ⟨3080939385966559, 1000000000000000, [1, 0, 1, 2, 1]⟩],
  [⟨-1026979795322186, 1000000000000000, [0, 1, 1, 0, 1]⟩, ⟨3080939385966559, 1000000000000000, [0, 1, 1, 2, 1]⟩],
  [⟨-1026979795322186, 1000000000000000, [1, 1, 1, 0, 0]⟩, ⟨3080939385966559, 1000000000000000, [1, 1, 1, 0, 2]⟩],
  [⟨-1026979795322186, 1000000000000000, [1, 1, 0, 1, 0]⟩, ⟨3080939385966559, 1000000000000000, [1, 1, 0, 1, 2]⟩],
  [⟨-1026979795322186, 1000000000000000, [1, 0, 1, 1, 0]⟩, ⟨3080939385966559, 1000000000000000, [1, 0, 1, 1, 2]⟩],
  [⟨-1026979795322186, 1000000000000000, [0, 1, 1, 1, 0]⟩, ⟨3080939385966559, 1000000000000000, [0, 1, 1, 1, 2]⟩],
  [⟨-1778781183844715, 1000000000000000, [0, 1, 1, 1, 1]⟩, ⟨5336343551534144, 1000000000000000, [2, 1, 1, 1, 1]⟩],
  [⟨-1778781183844715, 1000000000000000, [1, 0, 1, 1, 1]⟩, ⟨5336343551534144, 1000000000000000, [1, 2, 1, 1, 1]⟩],
  [⟨-1778781183844715, 1000000000000000, [1, 1, 0, 1, 1]⟩, ⟨5336343551534144, 1000000000000000, [1, 1, 2, 1, 1]⟩],
  [⟨-1778781183844715, 1000000000000000, [1, 1, 1, 0, 1]⟩, ⟨5336343551534144, 1000000000000000, [1, 1, 1, 2, 1]⟩],
  [⟨-1778781183844715, 1000000000000000, [1, 1, 1, 1, 0]⟩, ⟨5336343551534144, 1000000000000000, [1, 1, 1, 1, 2]⟩]]

/-- computeInterpolationMatrices.py:5981-6266. -/
def modalSer5p3 : List Poly := [
  [⟨1767766952966367, 10000000000000000, [0, 0, 0, 0, 0]⟩],
  [⟨3061862178478966, 10000000000000000, [1, 0, 0, 0, 0]⟩],
  [⟨3061862178478966, 10000000000000000, [0, 1, 0, 0, 0]⟩],
  [⟨3061862178478966, 10000000000000000, [0, 0, 1, 0, 0]⟩],
  [⟨3061862178478966, 10000000000000000, [0, 0, 0, 1, 0]⟩],
  [⟨3061862178478966, 10000000000000000, [0, 0, 0, 0, 1]⟩],
  [⟨5303300858899102, 10000000000000000, [1, 1, 0, 0, 0]⟩],
  [⟨5303300858899102, 10000000000000000, [1, 0, 1, 0, 0]⟩],
  [⟨5303300858899102, 10000000000000000, [0, 1, 1, 0, 0]⟩],
  [⟨5303300858899102, 10000000000000000, [1, 0, 0, 1, 0]⟩],
  [⟨5303300858899102, 10000000000000000, [0, 1, 0, 1, 0]⟩],
  [⟨5303300858899102, 10000000000000000, [0, 0, 1, 1, 0]⟩],
  [⟨5303300858899102, 10000000000000000, [1, 0, 0, 0, 1]⟩],
  [⟨5303300858899102, 10000000000000000, [0, 1, 0, 0, 1]⟩],
  [⟨5303300858899102, 10000000000000000, [0, 0, 1, 0, 1]⟩],
  [⟨5303300858899102, 10000000000000000, [0, 0, 0, 1, 1]⟩],
  [⟨-1976423537605237, 10000000000000000, [0, 0, 0, 0, 0]⟩, ⟨592927061281571, 1000000000000000, [2, 0, 0, 0, 0]⟩],
  [⟨-1976423537605237, 10000000000000000, [0, 0, 0, 0, 0]⟩, ⟨592927061281571, 1000000000000000, [0, 2, 0, 0, 0]⟩],
  [⟨-1976423537605237, 10000000000000000, [0, 0, 0, 0, 0]⟩, ⟨592927061281571, 1000000000000000, [0, 0, 2, 0, 0]⟩],
  [⟨-1976423537605237, 10000000000000000, [0, 0, 0, 0, 0]⟩, ⟨592927061281571, 1000000000000000, [0, 0, 0, 2, 0]⟩],
  [⟨-1976423537605237, 10000000000000000, [0, 0, 0, 0, 0]⟩, ⟨592927061281571, 1000000000000000, [0, 0, 0, 0, 2]⟩],
  [⟨9185586535436896, 10000000000000000, [1, 1, 1, 0, 0]⟩],
  [⟨9185586535436896, 10000000000000000, [1, 1, 0, 1, 0]⟩],
  [⟨9185586535436896, 10000000000000000, [1, 0, 1, 1, 0]⟩],
  [⟨9185586535436896, 10000000000000000, [0, 1, 1, 1, 0]⟩],
  [⟨9185586535436896, 10000000000000000, [1, 1, 0, 0, 1]⟩],
  [⟨9185586535436896, 10000000000000000, [1, 0, 1, 0, 1]⟩],
  [⟨9185586535436896, 10000000000000000, [0, 1, 1, 0, 1]⟩],
  [⟨9185586535436896, 10000000000000000, [1, 0, 0, 1, 1]⟩],
  [⟨9185586535436896, 10000000000000000, [0, 1, 0, 1, 1]⟩],
  [⟨9185586535436896, 10000000000000000, [0, 0, 1, 1, 1]⟩],
  [⟨-3423265984407291, 10000000000000000, [0, 1, 0, 0, 0]⟩, ⟨1026979795322187, 1000000000000000, [2, 1, 0, 0, 0]⟩],
  [⟨-3423265984407291, 10000000000000000, [1, 0, 0, 0, 0]⟩, ⟨1026979795322187, 1000000000000000, [1, 2, 0, 0, 0]⟩],
  [⟨-3423265984407291, 10000000000000000, [0, 0, 1, 0, 0]⟩, ⟨1026979795322187, 1000000000000000, [2, 0, 1, 0, 0]⟩],
  [⟨-3423265984407291, 10000000000000000, [0, 0, 1, 0, 0]⟩, ⟨1026979795322187, 1000000000000000, [0, 2, 1, 0, 0]⟩],
  [⟨-3423265984407291, 10000000000000000, [1, 0, 0, 0, 0]⟩, ⟨1026979795322187, 1000000000000000, [1, 0, 2, 0, 0]⟩],
  [⟨-3423265984407291, 10000000000000000, [0, 1, 0, 0, 0]⟩, ⟨1026979795322187, 1000000000000000, [0, 1, 2, 0, 0]⟩],
  [⟨-3423265984407291, 10000000000000000, [0, 0, 0, 1, 0]⟩, ⟨1026979795322187, 1000000000000000, [2, 0, 0, 1, 0]⟩],
  [⟨-3423265984407291, 10000000000000000, [0, 0, 0, 1, 0]⟩, ⟨1026979795322187, 1000000000000000, [0, 2, 0, 1, 0]⟩],
  [⟨-3423265984407291, 10000000000000000, [0, 0, 0, 1, 0]⟩, ⟨1026979795322187, 1000000000000000, [0, 0, 2, 1, 0]⟩],
  [⟨-3423265984407291, 10000000000000000, [1, 0, 0, 0, 0]⟩, ⟨1026979795322187, 1000000000000000, [1, 0, 0, 2, 0]⟩],
  [⟨-3423265984407291, 10000000000000000, [0, 1, 0, 0, 0]⟩, ⟨1026979795322187, 1000000000000000, [0, 1, 0, 2, 0]⟩],
  [⟨-3423265984407291, 10000000000000000, [0, 0, 1, 0, 0]⟩, ⟨1026979795322187, 1000000000000000, [0, 0, 1, 2, 0]⟩],
  [⟨-3423265984407291, 10000000000000000, [0, 0, 0, 0, 1]⟩, ⟨1026979795322187, 1000000000000000, [2, 0, 0, 0, 1]⟩],
  [⟨-3423265984407291, 10000000000000000, [0, 0, 0, 0, 1]⟩, ⟨1026979795322187, 1000000000000000, [0, 2, 0, 0, 1]⟩],
  [⟨-3423265984407291, 10000000000000000, [0, 0, 0, 0, 1]⟩, ⟨1026979795322187, 1000000000000000, [0, 0, 2, 0, 1]⟩],
  [⟨-3423265984407291, 10000000000000000, [0, 0, 0, 0, 1]⟩, ⟨1026979795322187, 1000000000000000, [0, 0, 0, 2, 1]⟩],
  [⟨-3423265984407291, 10000000000000000, [1, 0, 0, 0, 0]⟩, ⟨1026979795322187, 1000000000000000, [1, 0, 0, 0, 2]⟩],
  [⟨-3423265984407291, 10000000000000000, [0, 1, 0, 0, 0]⟩, ⟨1026979795322187, 1000000000000000, [0, 1, 0, 0, 2]⟩],
  [⟨-3423265984407291, 10000000000000000, [0, 0, 1, 0, 0]⟩, ⟨1026979795322187, 1000000000000000, [0, 0, 1, 0, 2]⟩],
  [⟨-3423265984407291, 10000000000000000, [0, 0, 0, 1, 0]⟩, ⟨1026979795322187, 1000000000000000, [0, 0, 0, 1, 2]⟩],
  [⟨-701560760020114, 1000000000000000, [1, 0, 0, 0, 0]⟩, ⟨1169267933366857, 1000000000000000, [3, 0, 0, 0, 0]⟩],
  [⟨-701560760020114, 1000000000000000, [0, 1, 0, 0, 0]⟩, ⟨1169267933366857, 1000000000000000, [0, 3, 0, 0, 0]⟩],
  [⟨-701560760020114, 1000000000000000, [0, 0, 1, 0, 0]⟩, ⟨1169267933366857, 1000000000000000, [0, 0, 3, 0, 0]⟩],
  [⟨-701560760020114, 1000000000000000, [0, 0, 0, 1, 0]⟩, ⟨1169267933366857, 1000000000000000, [0, 0, 0, 3, 0]⟩],
  [⟨-701560760020114, 1000000000000000, [0, 0, 0, 0, 1]⟩, ⟨1169267933366857, 1000000000000000, [0, 0, 0, 0, 3]⟩],
  [⟨1590990257669732, 1000000000000000, [1, 1, 1, 1, 0]⟩],
  [⟨1590990257669732, 1000000000000000, [1, 1, 1, 0, 1]⟩],
  [⟨1590990257669732, 1000000000000000, [1, 1, 0, 1, 1]⟩],
  [⟨1590990257669732, 1000000000000000, [1, 0, 1, 1, 1]⟩],
  [⟨1590990257669732, 1000000000000000, [0, 1, 1, 1, 1]⟩],
  [⟨-5929270612815707, 10000000000000000, [0, 1, 1, 0, 0]⟩, ⟨1778781183844712, 1000000000000000, [2, 1, 1, 0, 0]⟩],
  [⟨-5929270612815707, 10000000000000000, [1, 0, 1, 0, 0]⟩, ⟨1778781183844712, 1000000000000000, [1, 2, 1, 0, 0]⟩],
  [⟨-5929270612815707, 10000000000000000, [1, 1, 0, 0, 0]⟩, ⟨1778781183844712, 1000000000000000, [1, 1, 2, 0, 0]⟩],
  [⟨-5929270612815707, 10000000000000000, [0, 1, 0, 1, 0]⟩, ⟨1778781183844712, 1000000000000000, [2, 1, 0, 1, 0]⟩],
  [⟨-5929270612815707, 10000000000000000, [1, 0, 0, 1, 0]⟩, ⟨1778781183844712, 1000000000000000, [1, 2, 0, 1, 0]⟩],
  [⟨-5929270612815707, 10000000000000000, [0, 0, 1, 1, 0]⟩, ⟨1778781183844712, 1000000000000000, [2, 0, 1, 1, 0]⟩],
  [⟨-5929270612815707, 10000000000000000, [0, 0, 1, 1, 0]⟩, ⟨1778781183844712, 1000000000000000, [0, 2, 1, 1, 0]⟩],
  [⟨-5929270612815707, 10000000000000000, [1, 0, 0, 1, 0]⟩, ⟨1778781183844712, 1000000000000000, [1, 0, 2, 1, 0]⟩],
  [⟨-5929270612815707, 10000000000000000, [0, 1, 0, 1, 0]⟩, ⟨1778781183844712, 1000000000000000, [0, 1, 2, 1, 0]⟩],
  [⟨-5929270612815707, 10000000000000000, [1, 1, 0, 0, 0]⟩, ⟨1778781183844712, 1000000000000000, [1, 1, 0, 2, 0]⟩],
  [⟨-5929270612815707, 10000000000000000, [1, 0, 1, 0, 0]⟩, ⟨1778781183844712, 1000000000000000, [1, 0, 1, 2, 0]⟩],
  [⟨-5929270612815707, 10000000000000000, [0, 1, 1, 0, 0]⟩, ⟨1778781183844712, 1000000000000000, [0, 1, 1, 2, 0]⟩],
  [⟨-5929270612815707, 10000000000000000, [0, 1, 0, 0, 1]⟩, ⟨1778781183844712, 1000000000000000, [2, 1, 0, 0, 1]⟩],
  [⟨-5929270612815707, 10000000000000000, [1, 0, 0, 0, 1]⟩, ⟨1778781183844712, 1000000000000000, [1, 2, 0, 0, 1]⟩],
  [⟨-5929270612815707, 10000000000000000, [0, 0, 1, 0, 1]⟩, ⟨1778781183844712, 1000000000000000, [2, 0, 1, 0, 1]⟩],
  [⟨-5929270612815707, 10000000000000000, [0, 0, 1, 0, 1]⟩, ⟨1778781183844712, 1000000000000000, [0, 2, 1, 0, 1]⟩],
  [⟨-5929270612815707, 10000000000000000, [1, 0, 0, 0, 1]⟩, ⟨1778781183844712, 1000000000000000, [1, 0, 2, 0, 1]⟩],
  [⟨-5929270612815707, 10000000000000000, [0, 1, 0, 0, 1]⟩, ⟨1778781183844712, 1000000000000000, [0, 1, 2, 0, 1]⟩],
  [⟨-5929270612815707, 10000000000000000, [0, 0, 0, 1, 1]⟩, ⟨1778781183844712, 1000000000000000, [2, 0, 0, 1, 1]⟩],
  [⟨-5929270612815707, 10000000000000000, [0, 0, 0, 1, 1]⟩, ⟨1778781183844712, 1000000000000000, [0, 2, 0, 1, 1]⟩],
  [⟨-5929270612815707, 10000000000000000, [0, 0, 0, 1, 1]⟩, ⟨1778781183844712, 1000000000000000, [0, 0, 2, 1, 1]⟩],
  [⟨-5929270612815707, 10000000000000000, [1, 0, 0, 0, 1]⟩, ⟨1778781183844712, 1000000000000000, [1, 0, 0, 2, 1]⟩],
  [⟨-5929270612815707, 10000000000000000, [0, 1, 0, 0, 1]⟩, ⟨1778781183844712, 1000000000000000, [0, 1, 0, 2, 1]⟩],
  [⟨-5929270612815707, 10000000000000000, [0, 0, 1, 0, 1]⟩, ⟨1778781183844712, 1000000000000000, [0, 0, 1, 2, 1]⟩],
  [⟨-5929270612815707, 10000000000000000, [1, 1, 0, 0, 0]⟩, ⟨1778781183844712, 1000000000000000, [1, 1, 0, 0, 2]⟩],
  [⟨-5929270612815707, 10000000000000000, [1, 0, 1, 0, 0]⟩, ⟨1778781183844712, 1000000000000000, [1, 0, 1, 0, 2]⟩],
  [⟨-5929270612815707, 10000000000000000, [0, 1, 1, 0, 0]⟩, ⟨1778781183844712, 1000000000000000, [0, 1, 1, 0, 2]⟩],
  [⟨-5929270612815707, 10000000000000000, [1, 0, 0, 1, 0]⟩, ⟨1778781183844712, 1000000000000000, [1, 0, 0, 1, 2]⟩],
  [⟨-5929270612815707, 10000000000000000, [0, 1, 0, 1, 0]⟩, ⟨1778781183844712, 1000000000000000, [0, 1, 0, 1, 2]⟩],
  [⟨-5929270612815707, 10000000000000000, [0, 0, 1, 1, 0]⟩, ⟨1778781183844712, 1000000000000000, [0, 0, 1, 1, 2]⟩],
  [⟨-1215138880951473, 1000000000000000, [1, 1, 0, 0, 0]⟩, ⟨2025231468252455, 1000000000000000, [3, 1, 0, 0, 0]⟩],
  [⟨-1215138880951473, 1000000000000000, [1, 1, 0, 0, 0]⟩, ⟨2025231468252455, 1000000000000000, [1, 3, 0, 0, 0]⟩],
  [⟨-1215138880951473, 1000000000000000, [1, 0, 1, 0, 0]⟩, ⟨2025231468252455, 1000000000000000, [3, 0, 1, 0, 0]⟩],
  [⟨-1215138880951473, 1000000000000000, [0, 1, 1, 0, 0]⟩, ⟨2025231468252455, 1000000000000000, [0, 3, 1, 0, 0]⟩],
  [⟨-1215138880951473, 1000000000000000, [1, 0, 1, 0, 0]⟩, ⟨2025231468252455, 1000000000000000, [1, 0, 3, 0, 0]⟩],
  [⟨-1215138880951473, 1000000000000000, [0, 1, 1, 0, 0]⟩, ⟨2025231468252455, 1000000000000000, [0, 1, 3, 0, 0]⟩],
  [⟨-1215138880951473, 1000000000000000, [1, 0, 0, 1, 0]⟩, ⟨2025231468252455, 1000000000000000, [3, 0, 0, 1, 0]⟩],
  [⟨-1215138880951473, 1000000000000000, [0, 1, 0, 1, 0]⟩, ⟨2025231468252455, 1000000000000000, [0, 3, 0, 1, 0]⟩],
  [⟨-1215138880951473, 1000000000000000, [0, 0, 1, 1, 0]⟩, ⟨2025231468252455, 1000000000000000, [0, 0, 3, 1, 0]⟩],
  [⟨-1215138880951473, 1000000000000000, [1, 0, 0, 1, 0]⟩, ⟨2025231468252455, 1000000000000000, [1, 0, 0, 3, 0]⟩],
  [⟨-1215138880951473, 1000000000000000, [0, 1, 0, 1, 0]⟩, ⟨2025231468252455, 1000000000000000, [0, 1, 0, 3, 0]⟩],
  [⟨-1215138880951473, 1000000000000000, [0, 0, 1, 1, 0]⟩, ⟨2025231468252455, 1000000000000000, [0, 0, 1, 3, 0]⟩],
  [⟨-1215138880951473, 1000000000000000, [1, 0, 0, 0, 1]⟩, ⟨2025231468252455, 1000000000000000, [3, 0, 0, 0, 1]⟩],
  [⟨-1215138880951473, 1000000000000000, [0, 1, 0, 0, 1]⟩, ⟨2025231468252455, 1000000000000000, [0, 3, 0, 0, 1]⟩],
  [⟨-1215138880951473, 1000000000000000, [0, 0, 1, 0, 1]⟩, ⟨2025231468252455, 1000000000000000, [0, 0, 3, 0, 1]⟩],
  [⟨-1215138880951473, 1000000000000000, [0, 0, 0, 1, 1]⟩, ⟨2025231468252455, 1000000000000000, [0, 0, 0, 3, 1]⟩],
  [⟨-1215138880951473, 1000000000000000, [1, 0, 0, 0, 1]⟩, ⟨2025231468252455, 1000000000000000, [1, 0, 0, 0, 3]⟩],
  [⟨-1215138880951473, 1000000000000000, [0, 1, 0, 0, 1]⟩, ⟨2025231468252455, 1000000000000000, [0, 1, 0, 0, 3]⟩],
  [⟨-1215138880951473, 1000000000000000, [0, 0, 1, 0, 1]⟩, ⟨2025231468252455, 1000000000000000, [0, 0, 1, 0, 3]⟩],
  [⟨-1215138880951473, 1000000000000000, [0, 0, 0, 1, 1]⟩, ⟨2025231468252455, 1000000000000000, [0, 0, 0, 1, 3]⟩],
  [⟨2755675960631069, 1000000000000000, [1, 1, 1, 1, 1]⟩],
  [⟨-1026979795322186, 1000000000000000, [0, 1, 1, 1, 0]⟩, ⟨3080939385966559, 1000000000000000, [2, 1, 1, 1, 0]⟩],
  [⟨-1026979795322186, 1000000000000000, [1, 0, 1, 1, 0]⟩, ⟨3080939385966559, 1000000000000000, [1, 2, 1, 1, 0]⟩],
  [⟨-1026979795322186, 1000000000000000, [1, 1, 0, 1, 0]⟩, ⟨3080939385966559, 1000000000000000, [1, 1, 2, 1, 0]⟩],
  [⟨-1026979795322186, 1000000000000000, [1, 1, 1, 0, 0]⟩, ⟨3080939385966559, 1000000000000000, [1, 1, 1, 2, 0]⟩],
  [⟨-1026979795322186, 1000000000000000, [0, 1, 1, 0, 1]⟩, ⟨3080939385966559, 1000000000000000, [2, 1, 1, 0, 1]⟩],
  [⟨-1026979795322186, 1000000000000000, [1, 0, 1, 0, 1]⟩, ⟨3080939385966559, 1000000000000000, [1, 2, 1, 0, 1]⟩],
  [⟨-1026979795322186, 1000000000000000, [1, 1, 0, 0, 1]⟩, ⟨3080939385966559, 1000000000000000, [1, 1, 2, 0, 1]⟩],
  [⟨-1026979795322186, 1000000000000000, [0, 1, 0, 1, 1]⟩, ⟨3080939385966559, 1000000000000000, [2, 1, 0, 1, 1]⟩],
  [⟨-1026979795322186, 1000000000000000, [1, 0, 0, 1, 1]⟩, ⟨3080939385966559, 1000000000000000, [1, 2, 0, 1, 1]⟩],
  [⟨-1026979795322186, 1000000000000000, [0, 0, 1, 1, 1]⟩, ⟨3080939385966559, 1000000000000000, [2, 0, 1, 1, 1]⟩],
  [⟨-1026979795322186, 1000000000000000, [0, 0, 1, 1, 1]⟩, ⟨3080939385966559, 1000000000000000, [0, 2, 1, 1, 1]⟩],
  [⟨-1026979795322186, 1000000000000000, [1, 0, 0, 1, 1]⟩, ⟨3080939385966559, 1000000000000000, [1, 0, 2, 1, 1]⟩],
  [⟨-1026979795322186, 1000000000000000, [0, 1, 0, 1, 1]⟩, ⟨3080939385966559, 1000000000000000, [0, 1, 2, 1, 1]⟩],
  [⟨-1026979795322186, 1000000000000000, [1, 1, 0, 0, 1]⟩, ⟨3080939385966559, 1000000000000000, [1, 1, 0, 2, 1]⟩],
  [⟨-1026979795322186, 1000000000000000, [1, 0, 1, 0, 1]⟩, ⟨3080939385966559, 1000000000000000, [1, 0, 1, 2, 1]⟩],
  [⟨-1026979795322186, 1000000000000000, [0, 1, 1, 0, 1]⟩, ⟨3080939385966559, 1000000000000000, [0, 1, 1, 2, 1]⟩],
  [⟨-1026979795322186, 1000000000000000, [1, 1, 1, 0, 0]⟩, ⟨3080939385966559, 1000000000000000, [1, 1, 1, 0, 2]⟩],
  [⟨-1026979795322186, 1000000000000000, [1, 1, 0, 1, 0]⟩, ⟨3080939385966559, 1000000000000000, [1, 1, 0, 1, 2]⟩],
  [⟨-1026979795322186, 1000000000000000, [1, 0, 1, 1, 0]⟩, ⟨3080939385966559, 1000000000000000, [1, 0, 1, 1, 2]⟩],
  [⟨-1026979795322186, 1000000000000000, [0, 1, 1, 1, 0]⟩, ⟨3080939385966559, 1000000000000000, [0, 1, 1, 1, 2]⟩],
  [⟨-2104682280060341, 1000000000000000, [1, 1, 1, 0, 0]⟩, ⟨3507803800100568, 1000000000000000, [3, 1, 1, 0, 0]⟩],
  [⟨-2104682280060341, 1000000000000000, [1, 1, 1, 0, 0]⟩, ⟨3507803800100568, 1000000000000000, [1, 3, 1, 0, 0]⟩],
  [⟨-2104682280060341, 1000000000000000, [1, 1, 1, 0, 0]⟩, ⟨3507803800100568, 1000000000000000, [1, 1, 3, 0, 0]⟩],
  [⟨-2104682280060341, 1000000000000000, [1, 1, 0, 1, 0]⟩, ⟨3507803800100568, 1000000000000000, [3, 1, 0, 1, 0]⟩],
  [⟨-2104682280060341, 1000000000000000, [1, 1, 0, 1, 0]⟩, ⟨3507803800100568, 1000000000000000, [1, 3, 0, 1, 0]⟩],
  [⟨-2104682280060341, 1000000000000000, [1, 0, 1, 1, 0]⟩, ⟨3507803800100568, 1000000000000000, [3, 0, 1, 1, 0]⟩],
  [⟨-2104682280060341, 1000000000000000, [0, 1, 1, 1, 0]⟩, ⟨3507803800100568, 1000000000000000, [0, 3, 1, 1, 0]⟩],
  [⟨-2104682280060341, 1000000000000000, [1, 0, 1, 1, 0]⟩, ⟨3507803800100568, 1000000000000000, [1, 0, 3, 1, 0]⟩],
  [⟨-2104682280060341, 1000000000000000, [0, 1, 1, 1, 0]⟩, ⟨3507803800100568, 1000000000000000, [0, 1, 3, 1, 0]⟩],
  [⟨-2104682280060341, 1000000000000000, [1, 1, 0, 1, 0]⟩, ⟨3507803800100568, 1000000000000000, [1, 1, 0, 3, 0]⟩],
  [⟨-2104682280060341, 1000000000000000, [1, 0, 1, 1, 0]⟩, ⟨3507803800100568, 1000000000000000, [1, 0, 1, 3, 0]⟩],
  [⟨-2104682280060341, 1000000000000000, [0, 1, 1, 1, 0]⟩, ⟨3507803800100568, 1000000000000000, [0, 1, 1, 3, 0]⟩],
  [⟨-2104682280060341, 1000000000000000, [1, 1, 0, 0, 1]⟩, ⟨3507803800100568, 1000000000000000, [3, 1, 0, 0, 1]⟩],
  [⟨-2104682280060341, 1000000000000000, [1, 1, 0, 0, 1]⟩, ⟨3507803800100568, 1000000000000000, [1, 3, 0, 0, 1]⟩],
  [⟨-2104682280060341, 1000000000000000, [1, 0, 1, 0, 1]⟩, ⟨3507803800100568, 1000000000000000, [3, 0, 1, 0, 1]⟩],
  [⟨-2104682280060341, 1000000000000000, [0, 1, 1, 0, 1]⟩, ⟨3507803800100568, 1000000000000000, [0, 3, 1, 0, 1]⟩],
  [⟨-2104682280060341, 1000000000000000, [1, 0, 1, 0, 1]⟩, ⟨3507803800100568, 1000000000000000, [1, 0, 3, 0, 1]⟩],
  [⟨-2104682280060341, 1000000000000000, [0, 1, 1, 0, 1]⟩, ⟨3507803800100568, 1000000000000000, [0, 1, 3, 0, 1]⟩],
  [⟨-2104682280060341, 1000000000000000, [1, 0, 0, 1, 1]⟩, ⟨3507803800100568, 1000000000000000, [3, 0, 0, 1, 1]⟩],
  [⟨-2104682280060341, 1000000000000000, [0, 1, 0, 1, 1]⟩, ⟨3507803800100568, 1000000000000000, [0, 3, 0, 1, 1]⟩],
  [⟨-2104682280060341, 1000000000000000, [0, 0, 1, 1, 1]⟩, ⟨3507803800100568, 1000000000000000, [0, 0, 3, 1, 1]⟩],
  [⟨-2104682280060341, 1000000000000000, [1, 0, 0, 1, 1]⟩, ⟨3507803800100568, 1000000000000000, [1, 0, 0, 3, 1]⟩],
  [⟨-2104682280060341, 1000000000000000, [0, 1, 0, 1, 1]⟩, ⟨3507803800100568, 1000000000000000, [0, 1, 0, 3, 1]⟩],
  [⟨-2104682280060341, 1000000000000000, [0, 0, 1, 1, 1]⟩, ⟨3507803800100568, 1000000000000000, [0, 0, 1, 3, 1]⟩],
  [⟨-2104682280060341, 1000000000000000, [1, 1, 0, 0, 1]⟩, ⟨3507803800100568, 1000000000000000, [1, 1, 0, 0, 3]⟩],
  [⟨-2104682280060341, 1000000000000000, [1, 0, 1, 0, 1]⟩, ⟨3507803800100568, 1000000000000000, [1, 0, 1, 0, 3]⟩],
  [⟨-2104682280060341, 1000000000000000, [0, 1, 1, 0, 1]⟩, ⟨3507803800100568, 1000000000000000, [0, 1, 1, 0, 3]⟩],
  [⟨-2104682280060341, 1000000000000000, [1, 0, 0, 1, 1]⟩, ⟨3507803800100568, 1000000000000000, [1, 0, 0, 1, 3]⟩],
  [⟨-2104682280060341, 1000000000000000, [0, 1, 0, 1, 1]⟩, ⟨3507803800100568, 1000000000000000, [0, 1, 0, 1, 3]⟩],
  [⟨-2104682280060341, 1000000000000000, [0, 0, 1, 1, 1]⟩, ⟨3507803800100568, 1000000000000000, [0, 0, 1, 1, 3]⟩],
  [⟨-1778781183844715, 1000000000000000, [0, 1, 1, 1, 1]⟩, ⟨5336343551534144, 1000000000000000, [2, 1, 1, 1, 1]⟩],
  [⟨-1778781183844715, 1000000000000000, [1, 0, 1, 1, 1]⟩, ⟨5336343551534144, 1000000000000000, [1, 2, 1, 1, 1]⟩],
  [⟨-1778781183844715, 1000000000000000, [1, 1, 0, 1, 1]⟩, ⟨5336343551534144, 1000000000000000, [1, 1, 2, 1, 1]⟩],
  [⟨-1778781183844715, 1000000000000000, [1, 1, 1, 0, 1]⟩, ⟨5336343551534144, 1000000000000000, [1, 1, 1, 2, 1]⟩],
  [⟨-1778781183844715, 1000000000000000, [1, 1, 1, 1, 0]⟩, ⟨5336343551534144, 1000000000000000, [1, 1, 1, 1, 2]⟩],
  [⟨-364541664285442, 100000000000000, [1, 1, 1, 1, 0]⟩, ⟨6075694404757367, 1000000000000000, [3, 1, 1, 1, 0]⟩],
  [⟨-364541664285442, 100000000000000, [1, 1, 1, 1, 0]⟩, ⟨6075694404757367, 1000000000000000, [1, 3, 1, 1, 0]⟩],
  [⟨-364541664285442, 100000000000000, [1, 1, 1, 1, 0]⟩, ⟨6075694404757367, 1000000000000000, [1, 1, 3, 1, 0]⟩],
  [⟨-364541664285442, 100000000000000, [1, 1, 1, 1, 0]⟩, ⟨6075694404757367, 1000000000000000, [1, 1, 1, 3, 0]⟩],
  [⟨-364541664285442, 100000000000000, [1, 1, 1, 0, 1]⟩, ⟨6075694404757367, 1000000000000000, [3, 1, 1, 0, 1]⟩],
  [⟨-364541664285442, 100000000000000, [1, 1, 1, 0, 1]⟩, ⟨6075694404757367, 1000000000000000, [1, 3, 1, 0, 1]⟩],
  [⟨-364541664285442, 100000000000000, [1, 1, 1, 0, 1]⟩, ⟨6075694404757367, 1000000000000000, [1, 1, 3, 0, 1]⟩],
  [⟨-364541664285442, 100000000000000, [1, 1, 0, 1, 1]⟩, ⟨6075694404757367, 1000000000000000, [3, 1, 0, 1, 1]⟩],
  [⟨-364541664285442, 100000000000000, [1, 1, 0, 1, 1]⟩, ⟨6075694404757367, 1000000000000000, [1, 3, 0, 1, 1]⟩],
  [⟨-364541664285442, 100000000000000, [1, 0, 1, 1, 1]⟩, ⟨6075694404757367, 1000000000000000, [3, 0, 1, 1, 1]⟩],
  [⟨-364541664285442, 100000000000000, [0, 1, 1, 1, 1]⟩, ⟨6075694404757367, 1000000000000000, [0, 3, 1, 1, 1]⟩],
  [⟨-364541664285442, 100000000000000, [1, 0, 1, 1, 1]⟩, ⟨6075694404757367, 1000000000000000, [1, 0, 3, 1, 1]⟩],
  [⟨-364541664285442, 100000000000000, [0, 1, 1, 1, 1]⟩, ⟨6075694404757367, 1000000000000000, [0, 1, 3, 1, 1]⟩],
  [⟨-364541664285442, 100000000000000, [1, 1, 0, 1, 1]⟩, ⟨6075694404757367, 1000000000000000, [1, 1, 0, 3, 1]⟩],
  [⟨-364541664285442, 100000000000000, [1, 0, 1, 1, 1]⟩, ⟨6075694404757367, 1000000000000000, [1, 0, 1, 3, 1]⟩],
  [⟨-364541664285442, 100000000000000, [0, 1, 1, 1, 1]⟩, ⟨6075694404757367, 1000000000000000, [0, 1, 1, 3, 1]⟩],
  [⟨-364541664285442, 100000000000000, [1, 1, 1, 0, 1]⟩, ⟨6075694404757367, 1000000000000000, [1, 1, 1, 0, 3]⟩],
  [⟨-364541664285442, 100000000000000, [1, 1, 0, 1, 1]⟩, ⟨6075694404757367, 1000000000000000, [1, 1, 0, 1, 3]⟩],
  [⟨-364541664285442, 100000000000000, [1, 0, 1, 1, 1]⟩, ⟨6075694404757367, 1000000000000000, [1, 0, 1, 1, 3]⟩],
  [⟨-364541664285442, 100000000000000, [0, 1, 1, 1, 1]⟩, ⟨6075694404757367, 1000000000000000, [0, 1, 1, 1, 3]⟩],
  [⟨-6314046840181025, 1000000000000000, [1, 1, 1, 1, 1]⟩, ⟨1052341140030171, 100000000000000, [3, 1, 1, 1, 1]⟩],
  [⟨-6314046840181025, 1000000000000000, [1, 1, 1, 1, 1]⟩, ⟨1052341140030171, 100000000000000, [1, 3, 1, 1, 1]⟩],
  [⟨-6314046840181025, 1000000000000000, [1, 1, 1, 1, 1]⟩, ⟨1052341140030171, 100000000000000, [1, 1, 3, 1, 1]⟩],
  [⟨-6314046840181025, 1000000000000000, [1, 1, 1, 1, 1]⟩, ⟨1052341140030171, 100000000000000, [1, 1, 1, 3, 1]⟩],
  [⟨-6314046840181025, 1000000000000000, [1, 1, 1, 1, 1]⟩, ⟨1052341140030171, 100000000000000, [1, 1, 1, 1, 3]⟩]]

/-- computeInterpolationMatrices.py:6307-7472. -/
def modalSer5p4 : List Poly := [
  [⟨1767766952966367, 10000000000000000, [0, 0, 0, 0, 0]⟩],
  [⟨3061862178478966, 10000000000000000, [1, 0, 0, 0, 0]⟩],
  [⟨3061862178478966, 10000000000000000, [0, 1, 0, 0, 0]⟩],
  [⟨3061862178478966, 10000000000000000, [0, 0, 1, 0, 0]⟩],
  [⟨3061862178478966, 10000000000000000, [0, 0, 0, 1, 0]⟩],
  [⟨3061862178478966, 10000000000000000, [0, 0, 0, 0, 1]⟩],
  [⟨5303300858899102, 10000000000000000, [1, 1, 0, 0, 0]⟩],
  [⟨5303300858899102, 10000000000000000, [1, 0, 1, 0, 0]⟩],
  [⟨5303300858899102, 10000000000000000, [0, 1, 1, 0, 0]⟩],
  [⟨5303300858899102, 10000000000000000, [1, 0, 0, 1, 0]⟩],
  [⟨5303300858899102, 10000000000000000, [0, 1, 0, 1, 0]⟩],
  [⟨5303300858899102, 10000000000000000, [0, 0, 1, 1, 0]⟩],
  [⟨5303300858899102, 10000000000000000, [1, 0, 0, 0, 1]⟩],
  [⟨5303300858899102, 10000000000000000, [0, 1, 0, 0, 1]⟩],
  [⟨5303300858899102, 10000000000000000, [0, 0, 1, 0, 1]⟩],
  [⟨5303300858899102, 10000000000000000, [0, 0, 0, 1, 1]⟩],
  [⟨-1976423537605237, 10000000000000000, [0, 0, 0, 0, 0]⟩, ⟨592927061281571, 1000000000000000, [2, 0, 0, 0, 0]⟩],
  [⟨-1976423537605237, 10000000000000000, [0, 0, 0, 0, 0]⟩, ⟨592927061281571, 1000000000000000, [0, 2, 0, 0, 0]⟩],
  [⟨-1976423537605237, 10000000000000000, [0, 0, 0, 0, 0]⟩, ⟨592927061281571, 1000000000000000, [0, 0, 2, 0, 0]⟩],
  [⟨-1976423537605237, 10000000000000000, [0, 0, 0, 0, 0]⟩, ⟨592927061281571, 1000000000000000, [0, 0, 0, 2, 0]⟩],
  [⟨-1976423537605237, 10000000000000000, [0, 0, 0, 0, 0]⟩, ⟨592927061281571, 1000000000000000, [0, 0, 0, 0, 2]⟩],
  [⟨9185586535436896, 10000000000000000, [1, 1, 1, 0, 0]⟩],
  [⟨9185586535436896, 10000000000000000, [1, 1, 0, 1, 0]⟩],
  [⟨9185586535436896, 10000000000000000, [1, 0, 1, 1, 0]⟩],
  [⟨9185586535436896, 10000000000000000, [0, 1, 1, 1, 0]⟩],
  [⟨9185586535436896, 10000000000000000, [1, 1, 0, 0, 1]⟩],
  [⟨9185586535436896, 10000000000000000, [1, 0, 1, 0, 1]⟩],
  [⟨9185586535436896, 10000000000000000, [0, 1, 1, 0, 1]⟩],
  [⟨9185586535436896, 10000000000000000, [1, 0, 0, 1, 1]⟩],
  [⟨9185586535436896, 10000000000000000, [0, 1, 0, 1, 1]⟩],
  [⟨9185586535436896, 10000000000000000, [0, 0, 1, 1, 1]⟩],
  [⟨-3423265984407291, 10000000000000000, [0, 1, 0, 0, 0]⟩, ⟨1026979795322187, 1000000000000000, [2, 1, 0, 0, 0]⟩],
  [⟨-3423265984407291, 10000000000000000, [1, 0, 0, 0, 0]⟩, ⟨1026979795322187, 1000000000000000, [1, 2, 0, 0, 0]⟩],
  [⟨-3423265984407291, 10000000000000000, [0, 0, 1, 0, 0]⟩, ⟨1026979795322187, 1000000000000000, [2, 0, 1, 0, 0]⟩],
  [⟨-3423265984407291, 10000000000000000, [0, 0, 1, 0, 0]⟩, ⟨1026979795322187, 1000000000000000, [0, 2, 1, 0, 0]⟩],
  [⟨-3423265984407291, 10000000000000000, [1, 0, 0, 0, 0]⟩, ⟨1026979795322187, 1000000000000000, [1, 0, 2, 0, 0]⟩],
  [⟨-3423265984407291, 10000000000000000, [0, 1, 0, 0, 0]⟩, ⟨1026979795322187, 1000000000000000, [0, 1, 2, 0, 0]⟩],
  [⟨-3423265984407291, 10000000000000000, [0, 0, 0, 1, 0]⟩, ⟨1026979795322187, 1000000000000000, [2, 0, 0, 1, 0]⟩],
  [⟨-3423265984407291, 10000000000000000, [0, 0, 0, 1, 0]⟩, ⟨1026979795322187, 1000000000000000, [0, 2, 0, 1, 0]⟩],
  [⟨-3423265984407291, 10000000000000000, [0, 0, 0, 1, 0]⟩, ⟨1026979795322187, 1000000000000000, [0, 0, 2, 1, 0]⟩],
  [⟨-3423265984407291, 10000000000000000, [1, 0, 0, 0, 0]⟩, ⟨1026979795322187, 1000000000000000, [1, 0, 0, 2, 0]⟩],
  [⟨-3423265984407291, 10000000000000000, [0, 1, 0, 0, 0]⟩, ⟨1026979795322187, 1000000000000000, [0, 1, 0, 2, 0]⟩],
  [⟨-3423265984407291, 10000000000000000, [0, 0, 1, 0, 0]⟩, ⟨1026979795322187, 1000000000000000, [0, 0, 1, 2, 0]⟩],
  [⟨-3423265984407291, 10000000000000000, [0, 0, 0, 0, 1]⟩, ⟨1026979795322187, 1000000000000000, [2, 0, 0, 0, 1]⟩],
  [⟨-3423265984407291, 10000000000000000, [0, 0, 0, 0, 1]⟩, ⟨1026979795322187, 1000000000000000, [0, 2, 0, 0, 1]⟩],
  [⟨-3423265984407291, 10000000000000000, [0, 0, 0, 0, 1]⟩, ⟨1026979795322187, 1000000000000000, [0, 0, 2, 0, 1]⟩],
  [⟨-3423265984407291, 10000000000000000, [0, 0, 0, 0, 1]⟩, ⟨1026979795322187, 1000000000000000, [0, 0, 0, 2, 1]⟩],
  [⟨-3423265984407291, 10000000000000000, [1, 0, 0, 0, 0]⟩, ⟨1026979795322187, 1000000000000000, [1, 0, 0, 0, 2]⟩],
  [⟨-3423265984407291, 10000000000000000, [0, 1, 0, 0, 0]⟩, ⟨1026979795322187, 1000000000000000, [0, 1, 0, 0, 2]⟩],
  [⟨-3423265984407291, 10000000000000000, [0, 0, 1, 0, 0]⟩, ⟨1026979795322187, 1000000000000000, [0, 0, 1, 0, 2]⟩],
  [⟨-3423265984407291, 10000000000000000, [0, 0, 0, 1, 0]⟩, ⟨1026979795322187, 1000000000000000, [0, 0, 0, 1, 2]⟩],
  [⟨-701560760020114, 1000000000000000, [1, 0, 0, 0, 0]⟩, ⟨1169267933366857, 1000000000000000, [3, 0, 0, 0, 0]⟩],
  [⟨-701560760020114, 1000000000000000, [0, 1, 0, 0, 0]⟩, ⟨1169267933366857, 1000000000000000, [0, 3, 0, 0, 0]⟩],
  [⟨-701560760020114, 1000000000000000, [0, 0, 1, 0, 0]⟩, ⟨1169267933366857, 1000000000000000, [0, 0, 3, 0, 0]⟩],
  [⟨-701560760020114, 1000000000000000, [0, 0, 0, 1, 0]⟩, ⟨1169267933366857, 1000000000000000, [0, 0, 0, 3, 0]⟩],
  [⟨-701560760020114, 1000000000000000, [0, 0, 0, 0, 1]⟩, ⟨1169267933366857, 1000000000000000, [0, 0, 0, 0, 3]⟩],
  [⟨1590990257669732, 1000000000000000, [1, 1, 1, 1, 0]⟩],
  [⟨1590990257669732, 1000000000000000, [1, 1, 1, 0, 1]⟩],
  [⟨1590990257669732, 1000000000000000, [1, 1, 0, 1, 1]⟩],
  [⟨1590990257669732, 1000000000000000, [1, 0, 1, 1, 1]⟩],
  [⟨1590990257669732, 1000000000000000, [0, 1, 1, 1, 1]⟩],
  [⟨-5929270612815707, 10000000000000000, [0, 1, 1, 0, 0]⟩, ⟨1778781183844712, 1000000000000000, [2, 1, 1, 0, 0]⟩],
  [⟨-5929270612815707, 10000000000000000, [1, 0, 1, 0, 0]⟩, ⟨1778781183844712, 1000000000000000, [1, 2, 1, 0, 0]⟩],
  [⟨-5929270612815707, 10000000000000000, [1, 1, 0, 0, 0]⟩, ⟨1778781183844712, 1000000000000000, [1, 1, 2, 0, 0]⟩],
  [⟨-5929270612815707, 10000000000000000, [0, 1, 0, 1, 0]⟩, ⟨1778781183844712, 1000000000000000, [2, 1, 0, 1, 0]⟩],
  [⟨-5929270612815707, 10000000000000000, [1, 0, 0, 1, 0]⟩, ⟨1778781183844712, 1000000000000000, [1, 2, 0, 1, 0]⟩],
  [⟨-5929270612815707, 10000000000000000, [0, 0, 1, 1, 0]⟩, ⟨1778781183844712, 1000000000000000, [2, 0, 1, 1, 0]⟩],
  [⟨-5929270612815707, 10000000000000000, [0, 0, 1, 1, 0]⟩, ⟨1778781183844712, 1000000000000000, [0, 2, 1, 1, 0]⟩],
  [⟨-5929270612815707, 10000000000000000, [1, 0, 0, 1, 0]⟩, ⟨1778781183844712, 1000000000000000, [1, 0, 2, 1, 0]⟩],
  [⟨-5929270612815707, 10000000000000000, [0, 1, 0, 1, 0]⟩, ⟨1778781183844712, 1000000000000000, [0, 1, 2, 1, 0]⟩],
  [⟨-5929270612815707, 10000000000000000, [1, 1, 0, 0, 0]⟩, ⟨1778781183844712, 1000000000000000, [1, 1, 0, 2, 0]⟩],
  [⟨-5929270612815707, 10000000000000000, [1, 0, 1, 0, 0]⟩, ⟨1778781183844712, 1000000000000000, [1, 0, 1, 2, 0]⟩],
  [⟨-5929270612815707, 10000000000000000, [0, 1, 1, 0, 0]⟩, ⟨1778781183844712, 1000000000000000, [0, 1, 1, 2, 0]⟩],
  [⟨-5929270612815707, 10000000000000000, [0, 1, 0, 0, 1]⟩, ⟨1778781183844712, 1000000000000000, [2, 1, 0, 0, 1]⟩],
  [⟨-5929270612815707, 10000000000000000, [1, 0, 0, 0, 1]⟩, ⟨1778781183844712, 1000000000000000, [1, 2, 0, 0, 1]⟩],
  [⟨-5929270612815707, 10000000000000000, [0, 0, 1, 0, 1]⟩, ⟨1778781183844712, 1000000000000000, [2, 0, 1, 0, 1]⟩],
  [⟨-5929270612815707, 10000000000000000, [0, 0, 1, 0, 1]⟩, ⟨1778781183844712, 1000000000000000, [0, 2, 1, 0, 1]⟩],
  [⟨-5929270612815707, 10000000000000000, [1, 0, 0, 0, 1]⟩, ⟨1778781183844712, 1000000000000000, [1, 0, 2, 0, 1]⟩],
  [⟨-5929270612815707, 10000000000000000, [0, 1, 0, 0, 1]⟩, ⟨1778781183844712, 1000000000000000, [0, 1, 2, 0, 1]⟩],
  [⟨-5929270612815707, 10000000000000000, [0, 0, 0, 1, 1]⟩, ⟨1778781183844712, 1000000000000000, [2, 0, 0, 1, 1]⟩],
  [⟨-5929270612815707, 10000000000000000, [0, 0, 0, 1, 1]⟩, ⟨1778781183844712, 1000000000000000, [0, 2, 0, 1, 1]⟩],
  [⟨-5929270612815707, 10000000000000000, [0, 0, 0, 1, 1]⟩, ⟨1778781183844712, 1000000000000000, [0, 0, 2, 1, 1]⟩],
  [⟨-5929270612815707, 10000000000000000, [1, 0, 0, 0, 1]⟩, ⟨1778781183844712, 1000000000000000, [1, 0, 0, 2, 1]⟩],
  [⟨-5929270612815707, 10000000000000000, [0, 1, 0, 0, 1]⟩, ⟨1778781183844712, 1000000000000000, [0, 1, 0, 2, 1]⟩],
  [⟨-5929270612815707, 10000000000000000, [0, 0, 1, 0, 1]⟩, ⟨1778781183844712, 1000000000000000, [0, 0, 1, 2, 1]⟩],
  [⟨-5929270612815707, 10000000000000000, [1, 1, 0, 0, 0]⟩, ⟨1778781183844712, 1000000000000000, [1, 1, 0, 0, 2]⟩],
  [⟨-5929270612815707, 10000000000000000, [1, 0, 1, 0, 0]⟩, ⟨1778781183844712, 1000000000000000, [1, 0, 1, 0, 2]⟩],
  [⟨-5929270612815707, 10000000000000000, [0, 1, 1, 0, 0]⟩, ⟨1778781183844712, 1000000000000000, [0, 1, 1, 0, 2]⟩],
  [⟨-5929270612815707, 10000000000000000, [1, 0, 0, 1, 0]⟩, ⟨1778781183844712, 1000000000000000, [1, 0, 0, 1, 2]⟩],
  [⟨-5929270612815707, 10000000000000000, [0, 1, 0, 1, 0]⟩, ⟨1778781183844712, 1000000000000000, [0, 1, 0, 1, 2]⟩],
  [⟨-5929270612815707, 10000000000000000, [0, 0, 1, 1, 0]⟩, ⟨1778781183844712, 1000000000000000, [0, 0, 1, 1, 2]⟩],
  [⟨2209708691207962, 10000000000000000, [0, 0, 0, 0, 0]⟩, ⟨-6629126073623886, 10000000000000000, [0, 2, 0, 0, 0]⟩, ⟨-6629126073623886, 10000000000000000, [2, 0, 0, 0, 0]⟩, ⟨1988737822087165, 1000000000000000, [2, 2, 0, 0, 0]⟩],
  [⟨2209708691207962, 10000000000000000, [0, 0, 0, 0, 0]⟩, ⟨-6629126073623886, 10000000000000000, [0, 0, 2, 0, 0]⟩, ⟨-6629126073623886, 10000000000000000, [2, 0, 0, 0, 0]⟩, ⟨1988737822087165, 1000000000000000, [2, 0, 2, 0, 0]⟩],
  [⟨2209708691207962, 10000000000000000, [0, 0, 0, 0, 0]⟩, ⟨-6629126073623886, 10000000000000000, [0, 0, 2, 0, 0]⟩, ⟨-6629126073623886, 10000000000000000, [0, 2, 0, 0, 0]⟩, ⟨1988737822087165, 1000000000000000, [0, 2, 2, 0, 0]⟩],
  [⟨2209708691207962, 10000000000000000, [0, 0, 0, 0, 0]⟩, ⟨-6629126073623886, 10000000000000000, [0, 0, 0, 2, 0]⟩, ⟨-6629126073623886, 10000000000000000, [2, 0, 0, 0, 0]⟩, ⟨1988737822087165, 1000000000000000, [2, 0, 0, 2, 0]⟩],
  [⟨2209708691207962, 10000000000000000, [0, 0, 0, 0, 0]⟩, ⟨-6629126073623886, 10000000000000000, [0, 0, 0, 2, 0]⟩, ⟨-6629126073623886, 10000000000000000, [0, 2, 0, 0, 0]⟩, ⟨1988737822087165, 1000000000000000, [0, 2, 0, 2, 0]⟩],
  [⟨2209708691207962, 10000000000000000, [0, 0, 0, 0, 0]⟩, ⟨-6629126073623886, 10000000000000000, [0, 0, 0, 2, 0]⟩, ⟨-6629126073623886, 10000000000000000, [0, 0, 2, 0, 0]⟩, ⟨1988737822087165, 1000000000000000, [0, 0, 2, 2, 0]⟩],
  [⟨2209708691207962, 10000000000000000, [0, 0, 0, 0, 0]⟩, ⟨-6629126073623886, 10000000000000000, [0, 0, 0, 0, 2]⟩, ⟨-6629126073623886, 10000000000000000, [2, 0, 0, 0, 0]⟩, ⟨1988737822087165, 1000000000000000, [2, 0, 0, 0, 2]⟩],
  [⟨2209708691207962, 10000000000000000, [0, 0, 0, 0, 0]⟩, ⟨-6629126073623886, 10000000000000000, [0, 0, 0, 0, 2]⟩, ⟨-6629126073623886, 10000000000000000, [0, 2, 0, 0, 0]⟩, ⟨1988737822087165, 1000000000000000, [0, 2, 0, 0, 2]⟩],
  [⟨2209708691207962, 10000000000000000, [0, 0, 0, 0, 0]⟩, ⟨-6629126073623886, 10000000000000000, [0, 0, 0, 0, 2]⟩, ⟨-6629126073623886, 10000000000000000, [0, 0, 2, 0, 0]⟩, ⟨1988737822087165, 1000000000000000, [0, 0, 2, 0, 2]⟩],
  [⟨2209708691207962, 10000000000000000, [0, 0, 0, 0, 0]⟩, ⟨-6629126073623886, 10000000000000000, [0, 0, 0, 0, 2]⟩, ⟨-6629126073623886, 10000000000000000, [0, 0, 0, 2, 0]⟩, ⟨1988737822087165, 1000000000000000, [0, 0, 0, 2, 2]⟩],
  [⟨-1215138880951473, 1000000000000000, [1, 1, 0, 0, 0]⟩, ⟨2025231468252455, 1000000000000000, [3, 1, 0, 0, 0]⟩],
  [⟨-1215138880951473, 1000000000000000, [1, 1, 0, 0, 0]⟩, ⟨2025231468252455, 1000000000000000, [1, 3, 0, 0, 0]⟩],
  [⟨-1215138880951473, 1000000000000000, [1, 0, 1, 0, 0]⟩, ⟨2025231468252455, 1000000000000000, [3, 0, 1, 0, 0]⟩],
  [⟨-1215138880951473, 1000000000000000, [0, 1, 1, 0, 0]⟩, ⟨2025231468252455, 1000000000000000, [0, 3, 1, 0, 0]⟩],
  [⟨-1215138880951473, 1000000000000000, [1, 0, 1, 0, 0]⟩, ⟨2025231468252455, 1000000000000000, [1, 0, 3, 0, 0]⟩],
  [⟨-1215138880951473, 1000000000000000, [0, 1, 1, 0, 0]⟩, ⟨2025231468252455, 1000000000000000, [0, 1, 3, 0, 0]⟩],
  [⟨-1215138880951473, 1000000000000000, [1, 0, 0, 1, 0]⟩, ⟨2025231468252455, 1000000000000000, [3, 0, 0, 1, 0]⟩],
  [⟨-1215138880951473, 1000000000000000, [0, 1, 0, 1, 0]⟩, ⟨2025231468252455, 1000000000000000, [0, 3, 0, 1, 0]⟩],
  [⟨-1215138880951473, 1000000000000000, [0, 0, 1, 1, 0]⟩, ⟨2025231468252455, 1000000000000000, [0, 0, 3, 1, 0]⟩],
  [⟨-1215138880951473, 1000000000000000, [1, 0, 0, 1, 0]⟩, ⟨2025231468252455, 1000000000000000, [1, 0, 0, 3, 0]⟩],
  [⟨-1215138880951473, 1000000000000000, [0, 1, 0, 1, 0]⟩, ⟨2025231468252455, 1000000000000000, [0, 1, 0, 3, 0]⟩],
  [⟨-1215138880951473, 1000000000000000, [0, 0, 1, 1, 0]⟩, ⟨2025231468252455, 1000000000000000, [0, 0, 1, 3, 0]⟩],
  [⟨-1215138880951473, 1000000000000000, [1, 0, 0, 0, 1]⟩, ⟨2025231468252455, 1000000000000000, [3, 0, 0, 0, 1]⟩],
  [⟨-1215138880951473, 1000000000000000, [0, 1, 0, 0, 1]⟩, ⟨2025231468252455, 1000000000000000, [0, 3, 0, 0, 1]⟩],
  [⟨-1215138880951473, 1000000000000000, [0, 0, 1, 0, 1]⟩, ⟨2025231468252455, 1000000000000000, [0, 0, 3, 0, 1]⟩],
  [⟨-1215138880951473, 1000000000000000, [0, 0, 0, 1, 1]⟩, ⟨2025231468252455, 1000000000000000, [0, 0, 0, 3, 1]⟩],
  [⟨-1215138880951473, 1000000000000000, [1, 0, 0, 0, 1]⟩, ⟨2025231468252455, 1000000000000000, [1, 0, 0, 0, 3]⟩],
  [⟨-1215138880951473, 1000000000000000, [0, 1, 0, 0, 1]⟩, ⟨2025231468252455, 1000000000000000, [0, 1, 0, 0, 3]⟩],
  [⟨-1215138880951473, 1000000000000000, [0, 0, 1, 0, 1]⟩, ⟨2025231468252455, 1000000000000000, [0, 0, 1, 0, 3]⟩],
  [⟨-1215138880951473, 1000000000000000, [0, 0, 0, 1, 1]⟩, ⟨2025231468252455, 1000000000000000, [0, 0, 0, 1, 3]⟩],
  [⟨1988737822087163, 10000000000000000, [0, 0, 0, 0, 0]⟩, ⟨-1988737822087163, 1000000000000000, [2, 0, 0, 0, 0]⟩, ⟨2320194125768356, 1000000000000000, [4, 0, 0, 0, 0]⟩],
  [⟨1988737822087163, 10000000000000000, [0, 0, 0, 0, 0]⟩, ⟨-1988737822087163, 1000000000000000, [0, 2, 0, 0, 0]⟩, ⟨2320194125768356, 1000000000000000, [0, 4, 0, 0, 0]⟩],
  [⟨1988737822087163, 10000000000000000, [0, 0, 0, 0, 0]⟩, ⟨-1988737822087163, 1000000000000000, [0, 0, 2, 0, 0]⟩, ⟨2320194125768356, 1000000000000000, [0, 0, 4, 0, 0]⟩],
  [⟨1988737822087163, 10000000000000000, [0, 0, 0, 0, 0]⟩, ⟨-1988737822087163, 1000000000000000, [0, 0, 0, 2, 0]⟩, ⟨2320194125768356, 1000000000000000, [0, 0, 0, 4, 0]⟩],
  [⟨1988737822087163, 10000000000000000, [0, 0, 0, 0, 0]⟩, ⟨-1988737822087163, 1000000000000000, [0, 0, 0, 0, 2]⟩, ⟨2320194125768356, 1000000000000000, [0, 0, 0, 0, 4]⟩],
  [⟨2755675960631069, 1000000000000000, [1, 1, 1, 1, 1]⟩],
  [⟨-1026979795322186, 1000000000000000, [0, 1, 1, 1, 0]⟩, ⟨3080939385966559, 1000000000000000, [2, 1, 1, 1, 0]⟩],
  [⟨-1026979795322186, 1000000000000000, [1, 0, 1, 1, 0]⟩, ⟨3080939385966559, 1000000000000000, [1, 2, 1, 1, 0]⟩],
  [⟨-1026979795322186, 1000000000000000, [1, 1, 0, 1, 0]⟩, ⟨3080939385966559, 1000000000000000, [1, 1, 2, 1, 0]⟩],
  [⟨-1026979795322186, 1000000000000000, [1, 1, 1, 0, 0]⟩, ⟨3080939385966559, 1000000000000000, [1, 1, 1, 2, 0]⟩],
  [⟨-1026979795322186, 1000000000000000, [0, 1, 1, 0, 1]⟩, ⟨3080939385966559, 1000000000000000, [2, 1, 1, 0, 1]⟩],
  [⟨-1026979795322186, 1000000000000000, [1, 0, 1, 0, 1]⟩, ⟨3080939385966559, 1000000000000000, [1, 2, 1, 0, 1]⟩],
  [⟨-1026979795322186, 1000000000000000, [1, 1, 0, 0, 1]⟩, ⟨3080939385966559, 1000000000000000, [1, 1, 2, 0, 1]⟩],
  [⟨-1026979795322186, 1000000000000000, [0, 1, 0, 1, 1]⟩, ⟨3080939385966559, 1000000000000000, [2, 1, 0, 1, 1]⟩],
  [⟨-1026979795322186, 1000000000000000, [1, 0, 0, 1, 1]⟩, ⟨3080939385966559, 1000000000000000, [1, 2, 0, 1, 1]⟩],
  [⟨-1026979795322186, 1000000000000000, [0, 0, 1, 1, 1]⟩, ⟨3080939385966559, 1000000000000000, [2, 0, 1, 1, 1]⟩],
  [⟨-1026979795322186, 1000000000000000, [0, 0, 1, 1, 1]⟩, ⟨3080939385966559, 1000000000000000, [0, 2, 1, 1, 1]⟩],
  [⟨-1026979795322186, 1000000000000000, [1, 0, 0, 1, 1]⟩, ⟨3080939385966559, 1000000000000000, [1, 0, 2, 1, 1]⟩],
  [⟨-1026979795322186, 1000000000000000, [0, 1, 0, 1, 1]⟩, ⟨3080939385966559, 1000000000000000, [0, 1, 2, 1, 1]⟩],
  [⟨-1026979795322186, 1000000000000000, [1, 1, 0, 0, 1]⟩, ⟨3080939385966559, 1000000000000000, [1, 1, 0, 2, 1]⟩],
  [⟨-1026979795322186, 1000000000000000, [1, 0, 1, 0, 1]⟩, ⟨3080939385966559, 1000000000000000, [1, 0, 1, 2, 1]⟩],
  [⟨-1026979795322186, 1000000000000000, [0, 1, 1, 0, 1]⟩, ⟨3080939385966559, 1000000000000000, [0, 1, 1, 2, 1]⟩],
  [⟨-1026979795322186, 1000000000000000, [1, 1, 1, 0, 0]⟩, ⟨3080939385966559, 1000000000000000, [1, 1, 1, 0, 2]⟩],
  [⟨-1026979795322186, 1000000000000000, [1, 1, 0, 1, 0]⟩, ⟨3080939385966559, 1000000000000000, [1, 1, 0, 1, 2]⟩],
  [⟨-1026979795322186, 1000000000000000, [1, 0, 1, 1, 0]⟩, ⟨3080939385966559, 1000000000000000, [1, 0, 1, 1, 2]⟩],
  [⟨-1026979795322186, 1000000000000000, [0, 1, 1, 1, 0]⟩, ⟨3080939385966559, 1000000000000000, [0, 1, 1, 1, 2]⟩],
  [⟨3827327723098713, 10000000000000000, [0, 0, 1, 0, 0]⟩, ⟨-1148198316929614, 1000000000000000, [0, 2, 1, 0, 0]⟩, ⟨-1148198316929614, 1000000000000000, [2, 0, 1, 0, 0]⟩, ⟨3444594950788842, 1000000000000000, [2, 2, 1, 0, 0]⟩],
  [⟨3827327723098713, 10000000000000000, [0, 1, 0, 0, 0]⟩, ⟨-1148198316929614, 1000000000000000, [0, 1, 2, 0, 0]⟩, ⟨-1148198316929614, 1000000000000000, [2, 1, 0, 0, 0]⟩, ⟨3444594950788842, 1000000000000000, [2, 1, 2, 0, 0]⟩],
  [⟨3827327723098713, 10000000000000000, [1, 0, 0, 0, 0]⟩, ⟨-1148198316929614, 1000000000000000, [1, 0, 2, 0, 0]⟩, ⟨-1148198316929614, 1000000000000000, [1, 2, 0, 0, 0]⟩, ⟨3444594950788842, 1000000000000000, [1, 2, 2, 0, 0]⟩],
  [⟨3827327723098713, 10000000000000000, [0, 0, 0, 1, 0]⟩, ⟨-1148198316929614, 1000000000000000, [0, 2, 0, 1, 0]⟩, ⟨-1148198316929614, 1000000000000000, [2, 0, 0, 1, 0]⟩, ⟨3444594950788842, 1000000000000000, [2, 2, 0, 1, 0]⟩],
  [⟨3827327723098713, 10000000000000000, [0, 0, 0, 1, 0]⟩, ⟨-1148198316929614, 1000000000000000, [0, 0, 2, 1, 0]⟩, ⟨-1148198316929614, 1000000000000000, [2, 0, 0, 1, 0]⟩, ⟨3444594950788842, 1000000000000000, [2, 0, 2, 1, 0]⟩],
  [⟨3827327723098713, 10000000000000000, [0, 0, 0, 1, 0]⟩, ⟨-1148198316929614, 1000000000000000, [0, 0, 2, 1, 0]⟩, ⟨-1148198316929614, 1000000000000000, [0, 2, 0, 1, 0]⟩, ⟨3444594950788842, 1000000000000000, [0, 2, 2, 1, 0]⟩],
  [⟨3827327723098713, 10000000000000000, [0, 1, 0, 0, 0]⟩, ⟨-1148198316929614, 1000000000000000, [0, 1, 0, 2, 0]⟩, ⟨-1148198316929614, 1000000000000000, [2, 1, 0, 0, 0]⟩, ⟨3444594950788842, 1000000000000000, [2, 1, 0, 2, 0]⟩],
  [⟨3827327723098713, 10000000000000000, [1, 0, 0, 0, 0]⟩, ⟨-1148198316929614, 1000000000000000, [1, 0, 0, 2, 0]⟩, ⟨-1148198316929614, 1000000000000000, [1, 2, 0, 0, 0]⟩, ⟨3444594950788842, 1000000000000000, [1, 2, 0, 2, 0]⟩],
  [⟨3827327723098713, 10000000000000000, [0, 0, 1, 0, 0]⟩, ⟨-1148198316929614, 1000000000000000, [0, 0, 1, 2, 0]⟩, ⟨-1148198316929614, 1000000000000000, [2, 0, 1, 0, 0]⟩, ⟨3444594950788842, 1000000000000000, [2, 0, 1, 2, 0]⟩],
  [⟨3827327723098713, 10000000000000000, [0, 0, 1, 0, 0]⟩, ⟨-1148198316929614, 1000000000000000, [0, 0, 1, 2, 0]⟩, ⟨-1148198316929614, 1000000000000000, [0, 2, 1, 0, 0]⟩, ⟨3444594950788842, 1000000000000000, [0, 2, 1, 2, 0]⟩],
  [⟨3827327723098713, 10000000000000000, [1, 0, 0, 0, 0]⟩, ⟨-1148198316929614, 1000000000000000, [1, 0, 0, 2, 0]⟩, ⟨-1148198316929614, 1000000000000000, [1, 0, 2, 0, 0]⟩, ⟨3444594950788842, 1000000000000000, [1, 0, 2, 2, 0]⟩],
  [⟨3827327723098713, 10000000000000000, [0, 1, 0, 0, 0]⟩, ⟨-1148198316929614, 1000000000000000, [0, 1, 0, 2, 0]⟩, ⟨-1148198316929614, 1000000000000000, [0, 1, 2, 0, 0]⟩, ⟨3444594950788842, 1000000000000000, [0, 1, 2, 2, 0]⟩],
  [⟨3827327723098713, 10000000000000000, [0, 0, 0, 0, 1]⟩, ⟨-1148198316929614, 1000000000000000, [0, 2, 0, 0, 1]⟩, ⟨-1148198316929614, 1000000000000000, [2, 0, 0, 0, 1]⟩, ⟨3444594950788842, 1000000000000000, [2, 2, 0, 0, 1]⟩],
  [⟨3827327723098713, 10000000000000000, [0, 0, 0, 0, 1]⟩, ⟨-1148198316929614, 1000000000000000, [0, 0, 2, 0, 1]⟩, ⟨-1148198316929614, 1000000000000000, [2, 0, 0, 0, 1]⟩, ⟨3444594950788842, 1000000000000000, [2, 0, 2, 0, 1]⟩],
  [⟨3827327723098713, 10000000000000000, [0, 0, 0, 0, 1]⟩, ⟨-1148198316929614, 1000000000000000, [0, 0, 2, 0, 1]⟩, ⟨-1148198316929614, 1000000000000000, [0, 2, 0, 0, 1]⟩, ⟨3444594950788842, 1000000000000000, [0, 2, 2, 0, 1]⟩],
  [⟨3827327723098713, 10000000000000000, [0, 0, 0, 0, 1]⟩, ⟨-1148198316929614, 1000000000000000, [0, 0, 0, 2, 1]⟩, ⟨-1148198316929614, 1000000000000000, [2, 0, 0, 0, 1]⟩, ⟨3444594950788842, 1000000000000000, [2, 0, 0, 2, 1]⟩],
  [⟨3827327723098713, 10000000000000000, [0, 0, 0, 0, 1]⟩, ⟨-1148198316929614, 1000000000000000, [0, 0, 0, 2, 1]⟩, ⟨-1148198316929614, 1000000000000000, [0, 2, 0, 0, 1]⟩, ⟨3444594950788842, 1000000000000000, [0, 2, 0, 2, 1]⟩],
  [⟨3827327723098713, 10000000000000000, [0, 0, 0, 0, 1]⟩, ⟨-1148198316929614, 1000000000000000, [0, 0, 0, 2, 1]⟩, ⟨-1148198316929614, 1000000000000000, [0, 0, 2, 0, 1]⟩, ⟨3444594950788842, 1000000000000000, [0, 0, 2, 2, 1]⟩],
  [⟨3827327723098713, 10000000000000000, [0, 1, 0, 0, 0]⟩, ⟨-1148198316929614, 1000000000000000, [0, 1, 0, 0, 2]⟩, ⟨-1148198316929614, 1000000000000000, [2, 1, 0, 0, 0]⟩, ⟨3444594950788842, 1000000000000000, [2, 1, 0, 0, 2]⟩],
  [⟨3827327723098713, 10000000000000000, [1, 0, 0, 0, 0]⟩, ⟨-1148198316929614, 1000000000000000, [1, 0, 0, 0, 2]⟩, ⟨-1148198316929614, 1000000000000000, [1, 2, 0, 0, 0]⟩, ⟨3444594950788842, 1000000000000000, [1, 2, 0, 0, 2]⟩],
  [⟨3827327723098713, 10000000000000000, [0, 0, 1, 0, 0]⟩, ⟨-1148198316929614, 1000000000000000, [0, 0, 1, 0, 2]⟩, ⟨-1148198316929614, 1000000000000000, [2, 0, 1, 0, 0]⟩, ⟨3444594950788842, 1000000000000000, [2, 0, 1, 0, 2]⟩],
  [⟨3827327723098713, 10000000000000000, [0, 0, 1, 0, 0]⟩, ⟨-1148198316929614, 1000000000000000, [0, 0, 1, 0, 2]⟩, ⟨-1148198316929614, 1000000000000000, [0, 2, 1, 0, 0]⟩, ⟨3444594950788842, 1000000000000000, [0, 2, 1, 0, 2]⟩],
  [⟨3827327723098713, 10000000000000000, [1, 0, 0, 0, 0]⟩, ⟨-1148198316929614, 1000000000000000, [1, 0, 0, 0, 2]⟩, ⟨-1148198316929614, 1000000000000000, [1, 0, 2, 0, 0]⟩, ⟨3444594950788842, 1000000000000000, [1, 0, 2, 0, 2]⟩],
  [⟨3827327723098713, 10000000000000000, [0, 1, 0, 0, 0]⟩, ⟨-1148198316929614, 1000000000000000, [0, 1, 0, 0, 2]⟩, ⟨-1148198316929614, 1000000000000000, [0, 1, 2, 0, 0]⟩, ⟨3444594950788842, 1000000000000000, [0, 1, 2, 0, 2]⟩],
  [⟨3827327723098713, 10000000000000000, [0, 0, 0, 1, 0]⟩, ⟨-1148198316929614, 1000000000000000, [0, 0, 0, 1, 2]⟩, ⟨-1148198316929614, 1000000000000000, [2, 0, 0, 1, 0]⟩, ⟨3444594950788842, 1000000000000000, [2, 0, 0, 1, 2]⟩],
  [⟨3827327723098713, 10000000000000000, [0, 0, 0, 1, 0]⟩, ⟨-1148198316929614, 1000000000000000, [0, 0, 0, 1, 2]⟩, ⟨-1148198316929614, 1000000000000000, [0, 2, 0, 1, 0]⟩, ⟨3444594950788842, 1000000000000000, [0, 2, 0, 1, 2]⟩],
  [⟨3827327723098713, 10000000000000000, [0, 0, 0, 1, 0]⟩, ⟨-1148198316929614, 1000000000000000, [0, 0, 0, 1, 2]⟩, ⟨-1148198316929614, 1000000000000000, [0, 0, 2, 1, 0]⟩, ⟨3444594950788842, 1000000000000000, [0, 0, 2, 1, 2]⟩],
  [⟨3827327723098713, 10000000000000000, [1, 0, 0, 0, 0]⟩, ⟨-1148198316929614, 1000000000000000, [1, 0, 0, 0, 2]⟩, ⟨-1148198316929614, 1000000000000000, [1, 0, 0, 2, 0]⟩, ⟨3444594950788842, 1000000000000000, [1, 0, 0, 2, 2]⟩],
  [⟨3827327723098713, 10000000000000000, [0, 1, 0, 0, 0]⟩, ⟨-1148198316929614, 1000000000000000, [0, 1, 0, 0, 2]⟩, ⟨-1148198316929614, 1000000000000000, [0, 1, 0, 2, 0]⟩, ⟨3444594950788842, 1000000000000000, [0, 1, 0, 2, 2]⟩],
  [⟨3827327723098713, 10000000000000000, [0, 0, 1, 0, 0]⟩, ⟨-1148198316929614, 1000000000000000, [0, 0, 1, 0, 2]⟩, ⟨-1148198316929614, 1000000000000000, [0, 0, 1, 2, 0]⟩, ⟨3444594950788842, 1000000000000000, [0, 0, 1, 2, 2]⟩],
  [⟨-2104682280060341, 1000000000000000, [1, 1, 1, 0, 0]⟩, ⟨3507803800100568, 1000000000000000, [3, 1, 1, 0, 0]⟩],
  [⟨-2104682280060341, 1000000000000000, [1, 1, 1, 0, 0]⟩, ⟨3507803800100568, 1000000000000000, [1, 3, 1, 0, 0]⟩],
  [⟨-2104682280060341, 1000000000000000, [1, 1, 1, 0, 0]⟩, ⟨3507803800100568, 1000000000000000, [1, 1, 3, 0, 0]⟩],
  [⟨-2104682280060341, 1000000000000000, [1, 1, 0, 1, 0]⟩, ⟨3507803800100568, 1000000000000000, [3, 1, 0, 1, 0]⟩],
  [⟨-2104682280060341, 1000000000000000, [1, 1, 0, 1, 0]⟩, ⟨3507803800100568, 1000000000000000, [1, 3, 0, 1, 0]⟩],
  [⟨-2104682280060341, 1000000000000000, [1, 0, 1, 1, 0]⟩, ⟨3507803800100568, 1000000000000000, [3, 0, 1, 1, 0]⟩],
  [⟨-2104682280060341, 1000000000000000, [0, 1, 1, 1, 0]⟩, ⟨3507803800100568, 1000000000000000, [0, 3, 1, 1, 0]⟩],
  [⟨-2104682280060341, 1000000000000000, [1, 0, 1, 1, 0]⟩, ⟨3507803800100568, 1000000000000000, [1, 0, 3, 1, 0]⟩],
  [⟨-2104682280060341, 1000000000000000, [0, 1, 1, 1, 0]⟩, ⟨3507803800100568, 1000000000000000, [0, 1, 3, 1, 0]⟩],
  [⟨-2104682280060341, 1000000000000000, [1, 1, 0, 1, 0]⟩, ⟨3507803800100568, 1000000000000000, [1, 1, 0, 3, 0]⟩],
  [⟨-2104682280060341, 1000000000000000, [1, 0, 1, 1, 0]⟩, ⟨3507803800100568, 1000000000000000, [1, 0, 1, 3, 0]⟩],
  [⟨-2104682280060341, 1000000000000000, [0, 1, 1, 1, 0]⟩, ⟨3507803800100568, 1000000000000000, [0, 1, 1, 3, 0]⟩],
  [⟨-2104682280060341, 1000000000000000, [1, 1, 0, 0, 1]⟩, ⟨3507803800100568, 1000000000000000, [3, 1, 0, 0, 1]⟩],
  [⟨-2104682280060341, 1000000000000000, [1, 1, 0, 0, 1]⟩, ⟨3507803800100568, 1000000000000000, [1, 3, 0, 0, 1]⟩],
  [⟨-2104682280060341, 1000000000000000, [1, 0, 1, 0, 1]⟩, ⟨3507803800100568, 1000000000000000, [3, 0, 1, 0, 1]⟩],
  [⟨-2104682280060341, 1000000000000000, [0, 1, 1, 0, 1]⟩, ⟨3507803800100568, 1000000000000000, [0, 3, 1, 0, 1]⟩],
  [⟨-2104682280060341, 1000000000000000, [1, 0, 1, 0, 1]⟩, ⟨3507803800100568, 1000000000000000, [1, 0, 3, 0, 1]⟩],
  [⟨-2104682280060341, 1000000000000000, [0, 1, 1, 0, 1]⟩, ⟨3507803800100568, 1000000000000000, [0, 1, 3, 0, 1]⟩],
  [⟨-2104682280060341, 1000000000000000, [1, 0, 0, 1, 1]⟩, ⟨3507803800100568, 1000000000000000, [3, 0, 0, 1, 1]⟩],
  [⟨-2104682280060341, 1000000000000000, [0, 1, 0, 1, 1]⟩, ⟨3507803800100568, 1000000000000000, [0, 3, 0, 1, 1]⟩],
  [⟨-2104682280060341, 1000000000000000, [0, 0, 1, 1, 1]⟩, ⟨3507803800100568, 1000000000000000, [0, 0, 3, 1, 1]⟩],
  [⟨-2104682280060341, 1000000000000000, [1, 0, 0, 1, 1]⟩, ⟨3507803800100568, 1000000000000000, [1, 0, 0, 3, 1]⟩],
  [⟨-2104682280060341, 1000000000000000, [0, 1, 0, 1, 1]⟩, ⟨3507803800100568, 1000000000000000, [0, 1, 0, 3, 1]⟩],
  [⟨-2104682280060341, 1000000000000000, [0, 0, 1, 1, 1]⟩, ⟨3507803800100568, 1000000000000000, [0, 0, 1, 3, 1]⟩],
  [⟨-2104682280060341, 1000000000000000, [1, 1, 0, 0, 1]⟩, ⟨3507803800100568, 1000000000000000, [1, 1, 0, 0, 3]⟩],
  [⟨-2104682280060341, 1000000000000000, [1, 0, 1, 0, 1]⟩, ⟨3507803800100568, 1000000000000000, [1, 0, 1, 0, 3]⟩],
  [⟨-2104682280060341, 1000000000000000, [0, 1, 1, 0, 1]⟩, ⟨3507803800100568, 1000000000000000, [0, 1, 1, 0, 3]⟩],
  [⟨-2104682280060341, 1000000000000000, [1, 0, 0, 1, 1]⟩, ⟨3507803800100568, 1000000000000000, [1, 0, 0, 1, 3]⟩],
  [⟨-2104682280060341, 1000000000000000, [0, 1, 0, 1, 1]⟩, ⟨3507803800100568, 1000000000000000, [0, 1, 0, 1, 3]⟩],
  [⟨-2104682280060341, 1000000000000000, [0, 0, 1, 1, 1]⟩, ⟨3507803800100568, 1000000000000000, [0, 0, 1, 1, 3]⟩],
  [⟨3444594950788838, 10000000000000000, [0, 1, 0, 0, 0]⟩, ⟨-3444594950788839, 1000000000000000, [2, 1, 0, 0, 0]⟩, ⟨4018694109253645, 1000000000000000, [4, 1, 0, 0, 0]⟩],
  [⟨3444594950788838, 10000000000000000, [1, 0, 0, 0, 0]⟩, ⟨-3444594950788839, 1000000000000000, [1, 2, 0, 0, 0]⟩, ⟨4018694109253645, 1000000000000000, [1, 4, 0, 0, 0]⟩],
  [⟨3444594950788838, 10000000000000000, [0, 0, 1, 0, 0]⟩, ⟨-3444594950788839, 1000000000000000, [2, 0, 1, 0, 0]⟩, ⟨4018694109253645, 1000000000000000, [4, 0, 1, 0, 0]⟩],
  [⟨3444594950788838, 10000000000000000, [0, 0, 1, 0, 0]⟩, ⟨-3444594950788839, 1000000000000000, [0, 2, 1, 0, 0]⟩, ⟨4018694109253645, 1000000000000000, [0, 4, 1, 0, 0]⟩],
  [⟨3444594950788838, 10000000000000000, [1, 0, 0, 0, 0]⟩, ⟨-3444594950788839, 1000000000000000, [1, 0, 2, 0, 0]⟩, ⟨4018694109253645, 1000000000000000, [1, 0, 4, 0, 0]⟩],
  [⟨3444594950788838, 10000000000000000, [0, 1, 0, 0, 0]⟩, ⟨-3444594950788839, 1000000000000000, [0, 1, 2, 0, 0]⟩, ⟨4018694109253645, 1000000000000000, [0, 1, 4, 0, 0]⟩],
  [⟨3444594950788838, 10000000000000000, [0, 0, 0, 1, 0]⟩, ⟨-3444594950788839, 1000000000000000, [2, 0, 0, 1, 0]⟩, ⟨4018694109253645, 1000000000000000, [4, 0, 0, 1, 0]⟩],
  [⟨3444594950788838, 10000000000000000, [0, 0, 0, 1, 0]⟩, ⟨-3444594950788839, 1000000000000000, [0, 2, 0, 1, 0]⟩, ⟨4018694109253645, 1000000000000000, [0, 4, 0, 1, 0]⟩],
  [⟨3444594950788838, 10000000000000000, [0, 0, 0, 1, 0]⟩, ⟨-3444594950788839, 1000000000000000, [0, 0, 2, 1, 0]⟩, ⟨4018694109253645, 1000000000000000, [0, 0, 4, 1, 0]⟩],
  [⟨3444594950788838, 10000000000000000, [1, 0, 0, 0, 0]⟩, ⟨-3444594950788839, 1000000000000000, [1, 0, 0, 2, 0]⟩, ⟨4018694109253645, 1000000000000000, [1, 0, 0, 4, 0]⟩],
  [⟨3444594950788838, 10000000000000000, [0, 1, 0, 0, 0]⟩, ⟨-3444594950788839, 1000000000000000, [0, 1, 0, 2, 0]⟩, ⟨4018694109253645, 1000000000000000, [0, 1, 0, 4, 0]⟩],
  [⟨3444594950788838, 10000000000000000, [0, 0, 1, 0, 0]⟩, ⟨-3444594950788839, 1000000000000000, [0, 0, 1, 2, 0]⟩, ⟨4018694109253645, 1000000000000000, [0, 0, 1, 4, 0]⟩],
  [⟨3444594950788838, 10000000000000000, [0, 0, 0, 0, 1]⟩, ⟨-3444594950788839, 1000000000000000, [2, 0, 0, 0, 1]⟩, ⟨4018694109253645, 1000000000000000, [4, 0, 0, 0, 1]⟩],
  [⟨3444594950788838, 10000000000000000, [0, 0, 0, 0, 1]⟩, ⟨-3444594950788839, 1000000000000000, [0, 2, 0, 0, 1]⟩, ⟨4018694109253645, 1000000000000000, [0, 4, 0, 0, 1]⟩],
  [⟨3444594950788838, 10000000000000000, [0, 0, 0, 0, 1]⟩, ⟨-3444594950788839, 1000000000000000, [0, 0, 2, 0, 1]⟩, ⟨4018694109253645, 1000000000000000, [0, 0, 4, 0, 1]⟩],
  [⟨3444594950788838, 10000000000000000, [0, 0, 0, 0, 1]⟩, ⟨-3444594950788839, 1000000000000000, [0, 0, 0, 2, 1]⟩, ⟨4018694109253645, 1000000000000000, [0, 0, 0, 4, 1]⟩],
  [⟨3444594950788838, 10000000000000000, [1, 0, 0, 0, 0]⟩, ⟨-3444594950788839, 1000000000000000, [1, 0, 0, 0, 2]⟩, ⟨4018694109253645, 1000000000000000, [1, 0, 0, 0, 4]⟩],
  [⟨3444594950788838, 10000000000000000, [0, 1, 0, 0, 0]⟩, ⟨-3444594950788839, 1000000000000000, [0, 1, 0, 0, 2]⟩, ⟨4018694109253645, 1000000000000000, [0, 1, 0, 0, 4]⟩],
  [⟨3444594950788838, 10000000000000000, [0, 0, 1, 0, 0]⟩, ⟨-3444594950788839, 1000000000000000, [0, 0, 1, 0, 2]⟩, ⟨4018694109253645, 1000000000000000, [0, 0, 1, 0, 4]⟩],
  [⟨3444594950788838, 10000000000000000, [0, 0, 0, 1, 0]⟩, ⟨-3444594950788839, 1000000000000000, [0, 0, 0, 1, 2]⟩, ⟨4018694109253645, 1000000000000000, [0, 0, 0, 1, 4]⟩],
  [⟨-1778781183844715, 1000000000000000, [0, 1, 1, 1, 1]⟩, ⟨5336343551534144, 1000000000000000, [2, 1, 1, 1, 1]⟩],
  [⟨-1778781183844715, 1000000000000000, [1, 0, 1, 1, 1]⟩, ⟨5336343551534144, 1000000000000000, [1, 2, 1, 1, 1]⟩],
  [⟨-1778781183844715, 1000000000000000, [1, 1, 0, 1, 1]⟩, ⟨5336343551534144, 1000000000000000, [1, 1, 2, 1, 1]⟩],
  [⟨-1778781183844715, 1000000000000000, [1, 1, 1, 0, 1]⟩, ⟨5336343551534144, 1000000000000000, [1, 1, 1, 2, 1]⟩],
  [⟨-1778781183844715, 1000000000000000, [1, 1, 1, 1, 0]⟩, ⟨5336343551534144, 1000000000000000, [1, 1, 1, 1, 2]⟩],
  [⟨6629126073623886, 10000000000000000, [0, 0, 1, 1, 0]⟩, ⟨-1988737822087165, 1000000000000000, [0, 2, 1, 1, 0]⟩, ⟨-1988737822087165, 1000000000000000, [2, 0, 1, 1, 0]⟩, ⟨5966213466261497, 1000000000000000, [2, 2, 1, 1, 0]⟩],
  [⟨6629126073623886, 10000000000000000, [0, 1, 0, 1, 0]⟩, ⟨-1988737822087165, 1000000000000000, [0, 1, 2, 1, 0]⟩, ⟨-1988737822087165, 1000000000000000, [2, 1, 0, 1, 0]⟩, ⟨5966213466261497, 1000000000000000, [2, 1, 2, 1, 0]⟩],
  [⟨6629126073623886, 10000000000000000, [1, 0, 0, 1, 0]⟩, ⟨-1988737822087165, 1000000000000000, [1, 0, 2, 1, 0]⟩, ⟨-1988737822087165, 1000000000000000, [1, 2, 0, 1, 0]⟩, ⟨5966213466261497, 1000000000000000, [1, 2, 2, 1, 0]⟩],
  [⟨6629126073623886, 10000000000000000, [0, 1, 1, 0, 0]⟩, ⟨-1988737822087165, 1000000000000000, [0, 1, 1, 2, 0]⟩, ⟨-1988737822087165, 1000000000000000, [2, 1, 1, 0, 0]⟩, ⟨5966213466261497, 1000000000000000, [2, 1, 1, 2, 0]⟩],
  [⟨6629126073623886, 10000000000000000, [1, 0, 1, 0, 0]⟩, ⟨-1988737822087165, 1000000000000000, [1, 0, 1, 2, 0]⟩, ⟨-1988737822087165, 1000000000000000, [1, 2, 1, 0, 0]⟩, ⟨5966213466261497, 1000000000000000, [1, 2, 1, 2, 0]⟩],
  [⟨6629126073623886, 10000000000000000, [1, 1, 0, 0, 0]⟩, ⟨-1988737822087165, 1000000000000000, [1, 1, 0, 2, 0]⟩, ⟨-1988737822087165, 1000000000000000, [1, 1, 2, 0, 0]⟩, ⟨5966213466261497, 1000000000000000, [1, 1, 2, 2, 0]⟩],
  [⟨6629126073623886, 10000000000000000, [0, 0, 1, 0, 1]⟩, ⟨-1988737822087165, 1000000000000000, [0, 2, 1, 0, 1]⟩, ⟨-1988737822087165, 1000000000000000, [2, 0, 1, 0, 1]⟩, ⟨5966213466261497, 1000000000000000, [2, 2, 1, 0, 1]⟩],
  [⟨6629126073623886, 10000000000000000, [0, 1, 0, 0, 1]⟩, ⟨-1988737822087165, 1000000000000000, [0, 1, 2, 0, 1]⟩, ⟨-1988737822087165, 1000000000000000, [2, 1, 0, 0, 1]⟩, ⟨5966213466261497, 1000000000000000, [2, 1, 2, 0, 1]⟩],
  [⟨6629126073623886, 10000000000000000, [1, 0, 0, 0, 1]⟩, ⟨-1988737822087165, 1000000000000000, [1, 0, 2, 0, 1]⟩, ⟨-1988737822087165, 1000000000000000, [1, 2, 0, 0, 1]⟩, ⟨5966213466261497, 1000000000000000, [1, 2, 2, 0, 1]⟩],
  [⟨6629126073623886, 10000000000000000, [0, 0, 0, 1, 1]⟩, ⟨-1988737822087165, 1000000000000000, [0, 2, 0, 1, 1]⟩, ⟨-1988737822087165, 1000000000000000, [2, 0, 0, 1, 1]⟩, ⟨5966213466261497, 1000000000000000, [2, 2, 0, 1, 1]⟩],
  [⟨6629126073623886, 10000000000000000, [0, 0, 0, 1, 1]⟩, ⟨-1988737822087165, 1000000000000000, [0, 0, 2, 1, 1]⟩, ⟨-1988737822087165, 1000000000000000, [2, 0, 0, 1, 1]⟩, ⟨5966213466261497, 1000000000000000, [2, 0, 2, 1, 1]⟩],
  [⟨6629126073623886, 10000000000000000, [0, 0, 0, 1, 1]⟩, ⟨-1988737822087165, 1000000000000000, [0, 0, 2, 1, 1]⟩, ⟨-1988737822087165, 1000000000000000, [0, 2, 0, 1, 1]⟩, ⟨5966213466261497, 1000000000000000, [0, 2, 2, 1, 1]⟩],
  [⟨6629126073623886, 10000000000000000, [0, 1, 0, 0, 1]⟩, ⟨-1988737822087165, 1000000000000000, [0, 1, 0, 2, 1]⟩, ⟨-1988737822087165, 1000000000000000, [2, 1, 0, 0, 1]⟩, ⟨5966213466261497, 1000000000000000, [2, 1, 0, 2, 1]⟩],
  [⟨6629126073623886, 10000000000000000, [1, 0, 0, 0, 1]⟩, ⟨-1988737822087165, 1000000000000000, [1, 0, 0, 2, 1]⟩, ⟨-1988737822087165, 1000000000000000, [1, 2, 0, 0, 1]⟩, ⟨5966213466261497, 1000000000000000, [1, 2, 0, 2, 1]⟩],
  [⟨6629126073623886, 10000000000000000, [0, 0, 1, 0, 1]⟩, ⟨-1988737822087165, 1000000000000000, [0, 0, 1, 2, 1]⟩, ⟨-1988737822087165, 1000000000000000, [2, 0, 1, 0, 1]⟩, ⟨5966213466261497, 1000000000000000, [2, 0, 1, 2, 1]⟩],
  [⟨6629126073623886, 10000000000000000, [0, 0, 1, 0, 1]⟩, ⟨-1988737822087165, 1000000000000000, [0, 0, 1, 2, 1]⟩, ⟨-1988737822087165, 1000000000000000, [0, 2, 1, 0, 1]⟩, ⟨5966213466261497, 1000000000000000, [0, 2, 1, 2, 1]⟩],
  [⟨6629126073623886, 10000000000000000, [1, 0, 0, 0, 1]⟩, ⟨-1988737822087165, 1000000000000000, [1, 0, 0, 2, 1]⟩, ⟨-1988737822087165, 1000000000000000, [1, 0, 2, 0, 1]⟩, ⟨5966213466261497, 1000000000000000, [1, 0, 2, 2, 1]⟩],
  [⟨6629126073623886, 10000000000000000, [0, 1, 0, 0, 1]⟩, ⟨-1988737822087165, 1000000000000000, [0, 1, 0, 2, 1]⟩, ⟨-1988737822087165, 1000000000000000, [0, 1, 2, 0, 1]⟩, ⟨5966213466261497, 1000000000000000, [0, 1, 2, 2, 1]⟩],
  [⟨6629126073623886, 10000000000000000, [0, 1, 1, 0, 0]⟩, ⟨-1988737822087165, 1000000000000000, [0, 1, 1, 0, 2]⟩, ⟨-1988737822087165, 1000000000000000, [2, 1, 1, 0, 0]⟩, ⟨5966213466261497, 1000000000000000, [2, 1, 1, 0, 2]⟩],
  [⟨6629126073623886, 10000000000000000, [1, 0, 1, 0, 0]⟩, ⟨-1988737822087165, 1000000000000000, [1, 0, 1, 0, 2]⟩, ⟨-1988737822087165, 1000000000000000, [1, 2, 1, 0, 0]⟩, ⟨5966213466261497, 1000000000000000, [1, 2, 1, 0, 2]⟩],
  [⟨6629126073623886, 10000000000000000, [1, 1, 0, 0, 0]⟩, ⟨-1988737822087165, 1000000000000000, [1, 1, 0, 0, 2]⟩, ⟨-1988737822087165, 1000000000000000, [1, 1, 2, 0, 0]⟩, ⟨5966213466261497, 1000000000000000, [1, 1, 2, 0, 2]⟩],
  [⟨6629126073623886, 10000000000000000, [0, 1, 0, 1, 0]⟩, ⟨-1988737822087165, 1000000000000000, [0, 1, 0, 1, 2]⟩, ⟨-1988737822087165, 1000000000000000, [2, 1, 0, 1, 0]⟩, ⟨5966213466261497, 1000000000000000, [2, 1, 0, 1, 2]⟩],
  [⟨6629126073623886, 10000000000000000, [1, 0, 0, 1, 0]⟩, ⟨-1988737822087165, 1000000000000000, [1, 0, 0, 1, 2]⟩, ⟨-1988737822087165, 1000000000000000, [1, 2, 0, 1, 0]⟩, ⟨5966213466261497, 1000000000000000, [1, 2, 0, 1, 2]⟩],
  [⟨6629126073623886, 10000000000000000, [0, 0, 1, 1, 0]⟩, ⟨-1988737822087165, 1000000000000000, [0, 0, 1, 1, 2]⟩, ⟨-1988737822087165, 1000000000000000, [2, 0, 1, 1, 0]⟩, ⟨5966213466261497, 1000000000000000, [2, 0, 1, 1, 2]⟩],
  [⟨6629126073623886, 10000000000000000, [0, 0, 1, 1, 0]⟩, ⟨-1988737822087165, 1000000000000000, [0, 0, 1, 1, 2]⟩, ⟨-1988737822087165, 1000000000000000, [0, 2, 1, 1, 0]⟩, ⟨5966213466261497, 1000000000000000, [0, 2, 1, 1, 2]⟩],
  [⟨6629126073623886, 10000000000000000, [1, 0, 0, 1, 0]⟩, ⟨-1988737822087165, 1000000000000000, [1, 0, 0, 1, 2]⟩, ⟨-1988737822087165, 1000000000000000, [1, 0, 2, 1, 0]⟩, ⟨5966213466261497, 1000000000000000, [1, 0, 2, 1, 2]⟩],
  [⟨6629126073623886, 10000000000000000, [0, 1, 0, 1, 0]⟩, ⟨-1988737822087165, 1000000000000000, [0, 1, 0, 1, 2]⟩, ⟨-1988737822087165, 1000000000000000, [0, 1, 2, 1, 0]⟩, ⟨5966213466261497, 1000000000000000, [0, 1, 2, 1, 2]⟩],
  [⟨6629126073623886, 10000000000000000, [1, 1, 0, 0, 0]⟩, ⟨-1988737822087165, 1000000000000000, [1, 1, 0, 0, 2]⟩, ⟨-1988737822087165, 1000000000000000, [1, 1, 0, 2, 0]⟩, ⟨5966213466261497, 1000000000000000, [1, 1, 0, 2, 2]⟩],
  [⟨6629126073623886, 10000000000000000, [1, 0, 1, 0, 0]⟩, ⟨-1988737822087165, 1000000000000000, [1, 0, 1, 0, 2]⟩, ⟨-1988737822087165, 1000000000000000, [1, 0, 1, 2, 0]⟩, ⟨5966213466261497, 1000000000000000, [1, 0, 1, 2, 2]⟩],
  [⟨6629126073623886, 10000000000000000, [0, 1, 1, 0, 0]⟩, ⟨-1988737822087165, 1000000000000000, [0, 1, 1, 0, 2]⟩, ⟨-1988737822087165, 1000000000000000, [0, 1, 1, 2, 0]⟩, ⟨5966213466261497, 1000000000000000, [0, 1, 1, 2, 2]⟩],
  [⟨-364541664285442, 100000000000000, [1, 1, 1, 1, 0]⟩, ⟨6075694404757367, 1000000000000000, [3, 1, 1, 1, 0]⟩],
  [⟨-364541664285442, 100000000000000, [1, 1, 1, 1, 0]⟩, ⟨6075694404757367, 1000000000000000, [1, 3, 1, 1, 0]⟩],
  [⟨-364541664285442, 100000000000000, [1, 1, 1, 1, 0]⟩, ⟨6075694404757367, 1000000000000000, [1, 1, 3, 1, 0]⟩],
  [⟨-364541664285442, 100000000000000, [1, 1, 1, 1, 0]⟩, ⟨6075694404757367, 1000000000000000, [1, 1, 1, 3, 0]⟩],
  [⟨-364541664285442, 100000000000000, [1, 1, 1, 0, 1]⟩, ⟨6075694404757367, 1000000000000000, [3, 1, 1, 0, 1]⟩],
  [⟨-364541664285442, 100000000000000, [1, 1, 1, 0, 1]⟩, ⟨6075694404757367, 1000000000000000, [1, 3, 1, 0, 1]⟩],
  [⟨-364541664285442, 100000000000000, [1, 1, 1, 0, 1]⟩, ⟨6075694404757367, 1000000000000000, [1, 1, 3, 0, 1]⟩],
  [⟨-364541664285442, 100000000000000, [1, 1, 0, 1, 1]⟩, ⟨6075694404757367, 1000000000000000, [3, 1, 0, 1, 1]⟩],
  [⟨-364541664285442, 100000000000000, [1, 1, 0, 1, 1]⟩, ⟨6075694404757367, 1000000000000000, [1, 3, 0, 1, 1]⟩],
  [⟨-364541664285442, 100000000000000, [1, 0, 1, 1, 1]⟩, ⟨6075694404757367, 1000000000000000, [3, 0, 1, 1, 1]⟩],
  [⟨-364541664285442, 100000000000000, [0, 1, 1, 1, 1]⟩, ⟨6075694404757367, 1000000000000000, [0, 3, 1, 1, 1]⟩],
  [⟨-364541664285442, 100000000000000, [1, 0, 1, 1, 1]⟩, ⟨6075694404757367, 1000000000000000, [1, 0, 3, 1, 1]⟩],
  [⟨-364541664285442, 100000000000000, [0, 1, 1, 1, 1]⟩, ⟨6075694404757367, 1000000000000000, [0, 1, 3, 1, 1]⟩],
  [⟨-364541664285442, 100000000000000, [1, 1, 0, 1, 1]⟩, ⟨6075694404757367, 1000000000000000, [1, 1, 0, 3, 1]⟩],
  [⟨-364541664285442, 100000000000000, [1, 0, 1, 1, 1]⟩, ⟨6075694404757367, 1000000000000000, [1, 0, 1, 3, 1]⟩],
  [⟨-364541664285442, 100000000000000, [0, 1, 1, 1, 1]⟩, ⟨6075694404757367, 1000000000000000, [0, 1, 1, 3, 1]⟩],
  [⟨-364541664285442, 100000000000000, [1, 1, 1, 0, 1]⟩, ⟨6075694404757367, 1000000000000000, [1, 1, 1, 0, 3]⟩],
  [⟨-364541664285442, 100000000000000, [1, 1, 0, 1, 1]⟩, ⟨6075694404757367, 1000000000000000, [1, 1, 0, 1, 3]⟩],
  [⟨-364541664285442, 100000000000000, [1, 0, 1, 1, 1]⟩, ⟨6075694404757367, 1000000000000000, [1, 0, 1, 1, 3]⟩],
  [⟨-364541664285442, 100000000000000, [0, 1, 1, 1, 1]⟩, ⟨6075694404757367, 1000000000000000, [0, 1, 1, 1, 3]⟩],
  [⟨5966213466261489, 10000000000000000, [0, 1, 1, 0, 0]⟩, ⟨-5966213466261488, 1000000000000000, [2, 1, 1, 0, 0]⟩, ⟨6960582377305069, 1000000000000000, [4, 1, 1, 0, 0]⟩],
  [⟨5966213466261489, 10000000000000000, [1, 0, 1, 0, 0]⟩, ⟨-5966213466261488, 1000000000000000, [1, 2, 1, 0, 0]⟩, ⟨6960582377305069, 1000000000000000, [1, 4, 1, 0, 0]⟩],
  [⟨5966213466261489, 10000000000000000, [1, 1, 0, 0, 0]⟩, ⟨-5966213466261488, 1000000000000000, [1, 1, 2, 0, 0]⟩, ⟨6960582377305069, 1000000000000000, [1, 1, 4, 0, 0]⟩],
  [⟨5966213466261489, 10000000000000000, [0, 1, 0, 1, 0]⟩, ⟨-5966213466261488, 1000000000000000, [2, 1, 0, 1, 0]⟩, ⟨6960582377305069, 1000000000000000, [4, 1, 0, 1, 0]⟩],
  [⟨5966213466261489, 10000000000000000, [1, 0, 0, 1, 0]⟩, ⟨-5966213466261488, 1000000000000000, [1, 2, 0, 1, 0]⟩, ⟨6960582377305069, 1000000000000000, [1, 4, 0, 1, 0]⟩],
  [⟨5966213466261489, 10000000000000000, [0, 0, 1, 1, 0]⟩, ⟨-5966213466261488, 1000000000000000, [2, 0, 1, 1, 0]⟩, ⟨6960582377305069, 1000000000000000, [4, 0, 1, 1, 0]⟩],
  [⟨5966213466261489, 10000000000000000, [0, 0, 1, 1, 0]⟩, ⟨-5966213466261488, 1000000000000000, [0, 2, 1, 1, 0]⟩, ⟨6960582377305069, 1000000000000000, [0, 4, 1, 1, 0]⟩],
  [⟨5966213466261489, 10000000000000000, [1, 0, 0, 1, 0]⟩, ⟨-5966213466261488, 1000000000000000, [1, 0, 2, 1, 0]⟩, ⟨6960582377305069, 1000000000000000, [1, 0, 4, 1, 0]⟩],
  [⟨5966213466261489, 10000000000000000, [0, 1, 0, 1, 0]⟩, ⟨-5966213466261488, 1000000000000000, [0, 1, 2, 1, 0]⟩, ⟨6960582377305069, 1000000000000000, [0, 1, 4, 1, 0]⟩],
  [⟨5966213466261489, 10000000000000000, [1, 1, 0, 0, 0]⟩, ⟨-5966213466261488, 1000000000000000, [1, 1, 0, 2, 0]⟩, ⟨6960582377305069, 1000000000000000, [1, 1, 0, 4, 0]⟩],
  [⟨5966213466261489, 10000000000000000, [1, 0, 1, 0, 0]⟩, ⟨-5966213466261488, 1000000000000000, [1, 0, 1, 2, 0]⟩, ⟨6960582377305069, 1000000000000000, [1, 0, 1, 4, 0]⟩],
  [⟨5966213466261489, 10000000000000000, [0, 1, 1, 0, 0]⟩, ⟨-5966213466261488, 1000000000000000, [0, 1, 1, 2, 0]⟩, ⟨6960582377305069, 1000000000000000, [0, 1, 1, 4, 0]⟩],
  [⟨5966213466261489, 10000000000000000, [0, 1, 0, 0, 1]⟩, ⟨-5966213466261488, 1000000000000000, [2, 1, 0, 0, 1]⟩, ⟨6960582377305069, 1000000000000000, [4, 1, 0, 0, 1]⟩],
  [⟨5966213466261489, 10000000000000000, [1, 0, 0, 0, 1]⟩, ⟨-5966213466261488, 1000000000000000, [1, 2, 0, 0, 1]⟩, ⟨6960582377305069, 1000000000000000, [1, 4, 0, 0, 1]⟩],
  [⟨5966213466261489, 10000000000000000, [0, 0, 1, 0, 1]⟩, ⟨-5966213466261488, 1000000000000000, [2, 0, 1, 0, 1]⟩, ⟨6960582377305069, 1000000000000000, [4, 0, 1, 0, 1]⟩],
  [⟨5966213466261489, 10000000000000000, [0, 0, 1, 0, 1]⟩, ⟨-5966213466261488, 1000000000000000, [0, 2, 1, 0, 1]⟩, ⟨6960582377305069, 1000000000000000, [0, 4, 1, 0, 1]⟩],
  [⟨5966213466261489, 10000000000000000, [1, 0, 0, 0, 1]⟩, ⟨-5966213466261488, 1000000000000000, [1, 0, 2, 0, 1]⟩, ⟨6960582377305069, 1000000000000000, [1, 0, 4, 0, 1]⟩],
  [⟨5966213466261489, 10000000000000000, [0, 1, 0, 0, 1]⟩, ⟨-5966213466261488, 1000000000000000, [0, 1, 2, 0, 1]⟩, ⟨6960582377305069, 1000000000000000, [0, 1, 4, 0, 1]⟩],
  [⟨5966213466261489, 10000000000000000, [0, 0, 0, 1, 1]⟩, ⟨-5966213466261488, 1000000000000000, [2, 0, 0, 1, 1]⟩, ⟨6960582377305069, 1000000000000000, [4, 0, 0, 1, 1]⟩],
  [⟨5966213466261489, 10000000000000000, [0, 0, 0, 1, 1]⟩, ⟨-5966213466261488, 1000000000000000, [0, 2, 0, 1, 1]⟩, ⟨6960582377305069, 1000000000000000, [0, 4, 0, 1, 1]⟩],
  [⟨5966213466261489, 10000000000000000, [0, 0, 0, 1, 1]⟩, ⟨-5966213466261488, 1000000000000000, [0, 0, 2, 1, 1]⟩, ⟨6960582377305069, 1000000000000000, [0, 0, 4, 1, 1]⟩],
  [⟨5966213466261489, 10000000000000000, [1, 0, 0, 0, 1]⟩, ⟨-5966213466261488, 1000000000000000, [1, 0, 0, 2, 1]⟩, ⟨6960582377305069, 1000000000000000, [1, 0, 0, 4, 1]⟩],
  [⟨5966213466261489, 10000000000000000, [0, 1, 0, 0, 1]⟩, ⟨-5966213466261488, 1000000000000000, [0, 1, 0, 2, 1]⟩, ⟨6960582377305069, 1000000000000000, [0, 1, 0, 4, 1]⟩],
  [⟨5966213466261489, 10000000000000000, [0, 0, 1, 0, 1]⟩, ⟨-5966213466261488, 1000000000000000, [0, 0, 1, 2, 1]⟩, ⟨6960582377305069, 1000000000000000, [0, 0, 1, 4, 1]⟩],
  [⟨5966213466261489, 10000000000000000, [1, 1, 0, 0, 0]⟩, ⟨-5966213466261488, 1000000000000000, [1, 1, 0, 0, 2]⟩, ⟨6960582377305069, 1000000000000000, [1, 1, 0, 0, 4]⟩],
  [⟨5966213466261489, 10000000000000000, [1, 0, 1, 0, 0]⟩, ⟨-5966213466261488, 1000000000000000, [1, 0, 1, 0, 2]⟩, ⟨6960582377305069, 1000000000000000, [1, 0, 1, 0, 4]⟩],
  [⟨5966213466261489, 10000000000000000, [0, 1, 1, 0, 0]⟩, ⟨-5966213466261488, 1000000000000000, [0, 1, 1, 0, 2]⟩, ⟨6960582377305069, 1000000000000000, [0, 1, 1, 0, 4]⟩],
  [⟨5966213466261489, 10000000000000000, [1, 0, 0, 1, 0]⟩, ⟨-5966213466261488, 1000000000000000, [1, 0, 0, 1, 2]⟩, ⟨6960582377305069, 1000000000000000, [1, 0, 0, 1, 4]⟩],
  [⟨5966213466261489, 10000000000000000, [0, 1, 0, 1, 0]⟩, ⟨-5966213466261488, 1000000000000000, [0, 1, 0, 1, 2]⟩, ⟨6960582377305069, 1000000000000000, [0, 1, 0, 1, 4]⟩],
  [⟨5966213466261489, 10000000000000000, [0, 0, 1, 1, 0]⟩, ⟨-5966213466261488, 1000000000000000, [0, 0, 1, 1, 2]⟩, ⟨6960582377305069, 1000000000000000, [0, 0, 1, 1, 4]⟩],
  [⟨1148198316929614, 1000000000000000, [0, 0, 1, 1, 1]⟩, ⟨-3444594950788842, 1000000000000000, [0, 2, 1, 1, 1]⟩, ⟨-3444594950788842, 1000000000000000, [2, 0, 1, 1, 1]⟩, ⟨1033378485236653, 100000000000000, [2, 2, 1, 1, 1]⟩],
  [⟨1148198316929614, 1000000000000000, [0, 1, 0, 1, 1]⟩, ⟨-3444594950788842, 1000000000000000, [0, 1, 2, 1, 1]⟩, ⟨-3444594950788842, 1000000000000000, [2, 1, 0, 1, 1]⟩, ⟨1033378485236653, 100000000000000, [2, 1, 2, 1, 1]⟩],
  [⟨1148198316929614, 1000000000000000, [1, 0, 0, 1, 1]⟩, ⟨-3444594950788842, 1000000000000000, [1, 0, 2, 1, 1]⟩, ⟨-3444594950788842, 1000000000000000, [1, 2, 0, 1, 1]⟩, ⟨1033378485236653, 100000000000000, [1, 2, 2, 1, 1]⟩],
  [⟨1148198316929614, 1000000000000000, [0, 1, 1, 0, 1]⟩, ⟨-3444594950788842, 1000000000000000, [0, 1, 1, 2, 1]⟩, ⟨-3444594950788842, 1000000000000000, [2, 1, 1, 0, 1]⟩, ⟨1033378485236653, 100000000000000, [2, 1, 1, 2, 1]⟩],
  [⟨1148198316929614, 1000000000000000, [1, 0, 1, 0, 1]⟩, ⟨-3444594950788842, 1000000000000000, [1, 0, 1, 2, 1]⟩, ⟨-3444594950788842, 1000000000000000, [1, 2, 1, 0, 1]⟩, ⟨1033378485236653, 100000000000000, [1, 2, 1, 2, 1]⟩],
  [⟨1148198316929614, 1000000000000000, [1, 1, 0, 0, 1]⟩, ⟨-3444594950788842, 1000000000000000, [1, 1, 0, 2, 1]⟩, ⟨-3444594950788842, 1000000000000000, [1, 1, 2, 0, 1]⟩, ⟨1033378485236653, 100000000000000, [1, 1, 2, 2, 1]⟩],
  [⟨1148198316929614, 1000000000000000, [0, 1, 1, 1, 0]⟩, ⟨-3444594950788842, 1000000000000000, [0, 1, 1, 1, 2]⟩, ⟨-3444594950788842, 1000000000000000, [2, 1, 1, 1, 0]⟩, ⟨1033378485236653, 100000000000000, [2, 1, 1, 1, 2]⟩],
  [⟨1148198316929614, 1000000000000000, [1, 0, 1, 1, 0]⟩, ⟨-3444594950788842, 1000000000000000, [1, 0, 1, 1, 2]⟩, ⟨-3444594950788842, 1000000000000000, [1, 2, 1, 1, 0]⟩, ⟨1033378485236653, 100000000000000, [1, 2, 1, 1, 2]⟩],
  [⟨1148198316929614, 1000000000000000, [1, 1, 0, 1, 0]⟩, ⟨-3444594950788842, 1000000000000000, [1, 1, 0, 1, 2]⟩, ⟨-3444594950788842, 1000000000000000, [1, 1, 2, 1, 0]⟩, ⟨1033378485236653, 100000000000000, [1, 1, 2, 1, 2]⟩],
  [⟨1148198316929614, 1000000000000000, [1, 1, 1, 0, 0]⟩, ⟨-3444594950788842, 1000000000000000, [1, 1, 1, 0, 2]⟩, ⟨-3444594950788842, 1000000000000000, [1, 1, 1, 2, 0]⟩, ⟨1033378485236653, 100000000000000, [1, 1, 1, 2, 2]⟩],
  [⟨-6314046840181025, 1000000000000000, [1, 1, 1, 1, 1]⟩, ⟨1052341140030171, 100000000000000, [3, 1, 1, 1, 1]⟩],
  [⟨-6314046840181025, 1000000000000000, [1, 1, 1, 1, 1]⟩, ⟨1052341140030171, 100000000000000, [1, 3, 1, 1, 1]⟩],
  [⟨-6314046840181025, 1000000000000000, [1, 1, 1, 1, 1]⟩, ⟨1052341140030171, 100000000000000, [1, 1, 3, 1, 1]⟩],
  [⟨-6314046840181025, 1000000000000000, [1, 1, 1, 1, 1]⟩, ⟨1052341140030171, 100000000000000, [1, 1, 1, 3, 1]⟩],
  [⟨-6314046840181025, 1000000000000000, [1, 1, 1, 1, 1]⟩, ⟨1052341140030171, 100000000000000, [1, 1, 1, 1, 3]⟩],
  [⟨1033378485236654, 1000000000000000, [0, 1, 1, 1, 0]⟩, ⟨-1033378485236654, 100000000000000, [2, 1, 1, 1, 0]⟩, ⟨1205608232776096, 100000000000000, [4, 1, 1, 1, 0]⟩],
  [⟨1033378485236654, 1000000000000000, [1, 0, 1, 1, 0]⟩, ⟨-1033378485236654, 100000000000000, [1, 2, 1, 1, 0]⟩, ⟨1205608232776096, 100000000000000, [1, 4, 1, 1, 0]⟩],
  [⟨1033378485236654, 1000000000000000, [1, 1, 0, 1, 0]⟩, ⟨-1033378485236654, 100000000000000, [1, 1, 2, 1, 0]⟩, ⟨1205608232776096, 100000000000000, [1, 1, 4, 1, 0]⟩],
  [⟨1033378485236654, 1000000000000000, [1, 1, 1, 0, 0]⟩, ⟨-1033378485236654, 100000000000000, [1, 1, 1, 2, 0]⟩, ⟨1205608232776096, 100000000000000, [1, 1, 1, 4, 0]⟩],
  [⟨1033378485236654, 1000000000000000, [0, 1, 1, 0, 1]⟩, ⟨-1033378485236654, 100000000000000, [2, 1, 1, 0, 1]⟩, ⟨1205608232776096, 100000000000000, [4, 1, 1, 0, 1]⟩],
  [⟨1033378485236654, 1000000000000000, [1, 0, 1, 0, 1]⟩, ⟨-1033378485236654, 100000000000000, [1, 2, 1, 0, 1]⟩, ⟨1205608232776096, 100000000000000, [1, 4, 1, 0, 1]⟩],
  [⟨1033378485236654, 1000000000000000, [1, 1, 0, 0, 1]⟩, ⟨-1033378485236654, 100000000000000, [1, 1, 2, 0, 1]⟩, ⟨1205608232776096, 100000000000000, [1, 1, 4, 0, 1]⟩],
  [⟨1033378485236654, 1000000000000000, [0, 1, 0, 1, 1]⟩, ⟨-1033378485236654, 100000000000000, [2, 1, 0, 1, 1]⟩, ⟨1205608232776096, 100000000000000, [4, 1, 0, 1, 1]⟩],
  [⟨1033378485236654, 1000000000000000, [1, 0, 0, 1, 1]⟩, ⟨-1033378485236654, 100000000000000, [1, 2, 0, 1, 1]⟩, ⟨1205608232776096, 100000000000000, [1, 4, 0, 1, 1]⟩],
  [⟨1033378485236654, 1000000000000000, [0, 0, 1, 1, 1]⟩, ⟨-1033378485236654, 100000000000000, [2, 0, 1, 1, 1]⟩, ⟨1205608232776096, 100000000000000, [4, 0, 1, 1, 1]⟩],
  [⟨1033378485236654, 1000000000000000, [0, 0, 1, 1, 1]⟩, ⟨-1033378485236654, 100000000000000, [0, 2, 1, 1, 1]⟩, ⟨1205608232776096, 100000000000000, [0, 4, 1, 1, 1]⟩],
  [⟨1033378485236654, 1000000000000000, [1, 0, 0, 1, 1]⟩, ⟨-1033378485236654, 100000000000000, [1, 0, 2, 1, 1]⟩, ⟨1205608232776096, 100000000000000, [1, 0, 4, 1, 1]⟩],
  [⟨1033378485236654, 1000000000000000, [0, 1, 0, 1, 1]⟩, ⟨-1033378485236654, 100000000000000, [0, 1, 2, 1, 1]⟩, ⟨1205608232776096, 100000000000000, [0, 1, 4, 1, 1]⟩],
  [⟨1033378485236654, 1000000000000000, [1, 1, 0, 0, 1]⟩, ⟨-1033378485236654, 100000000000000, [1, 1, 0, 2, 1]⟩, ⟨1205608232776096, 100000000000000, [1, 1, 0, 4, 1]⟩],
  [⟨1033378485236654, 1000000000000000, [1, 0, 1, 0, 1]⟩, ⟨-1033378485236654, 100000000000000, [1, 0, 1, 2, 1]⟩, ⟨1205608232776096, 100000000000000, [1, 0, 1, 4, 1]⟩],
  [⟨1033378485236654, 1000000000000000, [0, 1, 1, 0, 1]⟩, ⟨-1033378485236654, 100000000000000, [0, 1, 1, 2, 1]⟩, ⟨1205608232776096, 100000000000000, [0, 1, 1, 4, 1]⟩],
  [⟨1033378485236654, 1000000000000000, [1, 1, 1, 0, 0]⟩, ⟨-1033378485236654, 100000000000000, [1, 1, 1, 0, 2]⟩, ⟨1205608232776096, 100000000000000, [1, 1, 1, 0, 4]⟩],
  [⟨1033378485236654, 1000000000000000, [1, 1, 0, 1, 0]⟩, ⟨-1033378485236654, 100000000000000, [1, 1, 0, 1, 2]⟩, ⟨1205608232776096, 100000000000000, [1, 1, 0, 1, 4]⟩],
  [⟨1033378485236654, 1000000000000000, [1, 0, 1, 1, 0]⟩, ⟨-1033378485236654, 100000000000000, [1, 0, 1, 1, 2]⟩, ⟨1205608232776096, 100000000000000, [1, 0, 1, 1, 4]⟩],
  [⟨1033378485236654, 1000000000000000, [0, 1, 1, 1, 0]⟩, ⟨-1033378485236654, 100000000000000, [0, 1, 1, 1, 2]⟩, ⟨1205608232776096, 100000000000000, [0, 1, 1, 1, 4]⟩],
  [⟨1789864039878446, 1000000000000000, [0, 1, 1, 1, 1]⟩, ⟨-1789864039878447, 100000000000000, [2, 1, 1, 1, 1]⟩, ⟨2088174713191521, 100000000000000, [4, 1, 1, 1, 1]⟩],
  [⟨1789864039878446, 1000000000000000, [1, 0, 1, 1, 1]⟩, ⟨-1789864039878447, 100000000000000, [1, 2, 1, 1, 1]⟩, ⟨2088174713191521, 100000000000000, [1, 4, 1, 1, 1]⟩],
  [⟨1789864039878446, 1000000000000000, [1, 1, 0, 1, 1]⟩, ⟨-1789864039878447, 100000000000000, [1, 1, 2, 1, 1]⟩, ⟨2088174713191521, 100000000000000, [1, 1, 4, 1, 1]⟩],
  [⟨1789864039878446, 1000000000000000, [1, 1, 1, 0, 1]⟩, ⟨-1789864039878447, 100000000000000, [1, 1, 1, 2, 1]⟩, ⟨2088174713191521, 100000000000000, [1, 1, 1, 4, 1]⟩],
  [⟨1789864039878446, 1000000000000000, [1, 1, 1, 1, 0]⟩, ⟨-1789864039878447, 100000000000000, [1, 1, 1, 1, 2]⟩, ⟨2088174713191521, 100000000000000, [1, 1, 1, 1, 4]⟩]]

/-- computeInterpolationMatrices.py:7520-7586. -/
def modalGkh5p1 : List Poly := [
  [⟨1767766952966368, 10000000000000000, [0, 0, 0, 0, 0]⟩],
  [⟨3061862178478971, 10000000000000000, [1, 0, 0, 0, 0]⟩],
  [⟨3061862178478971, 10000000000000000, [0, 1, 0, 0, 0]⟩],
  [⟨3061862178478971, 10000000000000000, [0, 0, 1, 0, 0]⟩],
  [⟨3061862178478971, 10000000000000000, [0, 0, 0, 1, 0]⟩],
  [⟨3061862178478971, 10000000000000000, [0, 0, 0, 0, 1]⟩],
  [⟨5303300858899105, 10000000000000000, [1, 1, 0, 0, 0]⟩],
  [⟨5303300858899105, 10000000000000000, [1, 0, 1, 0, 0]⟩],
  [⟨5303300858899105, 10000000000000000, [0, 1, 1, 0, 0]⟩],
  [⟨5303300858899105, 10000000000000000, [1, 0, 0, 1, 0]⟩],
  [⟨5303300858899105, 10000000000000000, [0, 1, 0, 1, 0]⟩],
  [⟨5303300858899105, 10000000000000000, [0, 0, 1, 1, 0]⟩],
  [⟨5303300858899105, 10000000000000000, [1, 0, 0, 0, 1]⟩],
  [⟨5303300858899105, 10000000000000000, [0, 1, 0, 0, 1]⟩],
  [⟨5303300858899105, 10000000000000000, [0, 0, 1, 0, 1]⟩],
  [⟨5303300858899105, 10000000000000000, [0, 0, 0, 1, 1]⟩],
  [⟨9185586535436913, 10000000000000000, [1, 1, 1, 0, 0]⟩],
  [⟨9185586535436913, 10000000000000000, [1, 1, 0, 1, 0]⟩],
  [⟨9185586535436913, 10000000000000000, [1, 0, 1, 1, 0]⟩],
  [⟨9185586535436913, 10000000000000000, [0, 1, 1, 1, 0]⟩],
  [⟨9185586535436913, 10000000000000000, [1, 1, 0, 0, 1]⟩],
  [⟨9185586535436913, 10000000000000000, [1, 0, 1, 0, 1]⟩],
  [⟨9185586535436913, 10000000000000000, [0, 1, 1, 0, 1]⟩],
  [⟨9185586535436913, 10000000000000000, [1, 0, 0, 1, 1]⟩],
  [⟨9185586535436913, 10000000000000000, [0, 1, 0, 1, 1]⟩],
  [⟨9185586535436913, 10000000000000000, [0, 0, 1, 1, 1]⟩],
  [⟨1590990257669731, 1000000000000000, [1, 1, 1, 1, 0]⟩],
  [⟨1590990257669731, 1000000000000000, [1, 1, 1, 0, 1]⟩],
  [⟨1590990257669731, 1000000000000000, [1, 1, 0, 1, 1]⟩],
  [⟨1590990257669731, 1000000000000000, [1, 0, 1, 1, 1]⟩],
  [⟨1590990257669731, 1000000000000000, [0, 1, 1, 1, 1]⟩],
  [⟨2755675960631073, 1000000000000000, [1, 1, 1, 1, 1]⟩],
  [⟨-1976423537605236469024312906143, 10000000000000000000000000000000, [0, 0, 0, 0, 0]⟩, ⟨592927061281571, 1000000000000000, [0, 0, 0, 2, 0]⟩],
  [⟨-3423265984407286324340068225938, 10000000000000000000000000000000, [1, 0, 0, 0, 0]⟩, ⟨1026979795322186, 1000000000000000, [1, 0, 0, 2, 0]⟩],
  [⟨-3423265984407286324340068225938, 10000000000000000000000000000000, [0, 1, 0, 0, 0]⟩, ⟨1026979795322186, 1000000000000000, [0, 1, 0, 2, 0]⟩],
  [⟨-3423265984407286324340068225938, 10000000000000000000000000000000, [0, 0, 1, 0, 0]⟩, ⟨1026979795322186, 1000000000000000, [0, 0, 1, 2, 0]⟩],
  [⟨-3423265984407286324340068225938, 10000000000000000000000000000000, [0, 0, 0, 0, 1]⟩, ⟨1026979795322186, 1000000000000000, [0, 0, 0, 2, 1]⟩],
  [⟨-5929270612815709407072938718429, 10000000000000000000000000000000, [1, 1, 0, 0, 0]⟩, ⟨1778781183844713, 1000000000000000, [1, 1, 0, 2, 0]⟩],
  [⟨-5929270612815709407072938718429, 10000000000000000000000000000000, [1, 0, 1, 0, 0]⟩, ⟨1778781183844713, 1000000000000000, [1, 0, 1, 2, 0]⟩],
  [⟨-5929270612815709407072938718429, 10000000000000000000000000000000, [0, 1, 1, 0, 0]⟩, ⟨1778781183844713, 1000000000000000, [0, 1, 1, 2, 0]⟩],
  [⟨-5929270612815709407072938718429, 10000000000000000000000000000000, [1, 0, 0, 0, 1]⟩, ⟨1778781183844713, 1000000000000000, [1, 0, 0, 2, 1]⟩],
  [⟨-5929270612815709407072938718429, 10000000000000000000000000000000, [0, 1, 0, 0, 1]⟩, ⟨1778781183844713, 1000000000000000, [0, 1, 0, 2, 1]⟩],
  [⟨-5929270612815709407072938718429, 10000000000000000000000000000000, [0, 0, 1, 0, 1]⟩, ⟨1778781183844713, 1000000000000000, [0, 0, 1, 2, 1]⟩],
  [⟨-10269797953221858973020204677814, 10000000000000000000000000000000, [1, 1, 1, 0, 0]⟩, ⟨3080939385966558, 1000000000000000, [1, 1, 1, 2, 0]⟩],
  [⟨-10269797953221858973020204677814, 10000000000000000000000000000000, [1, 1, 0, 0, 1]⟩, ⟨3080939385966558, 1000000000000000, [1, 1, 0, 2, 1]⟩],
  [⟨-10269797953221858973020204677814, 10000000000000000000000000000000, [1, 0, 1, 0, 1]⟩, ⟨3080939385966558, 1000000000000000, [1, 0, 1, 2, 1]⟩],
  [⟨-10269797953221858973020204677814, 10000000000000000000000000000000, [0, 1, 1, 0, 1]⟩, ⟨3080939385966558, 1000000000000000, [0, 1, 1, 2, 1]⟩],
  [⟨-17787811838447124887885482821954, 10000000000000000000000000000000, [1, 1, 1, 0, 1]⟩, ⟨5336343551534138, 1000000000000000, [1, 1, 1, 2, 1]⟩]]

/-- computeInterpolationMatrices.py:7635-8726. -/
def nodalSer5p1 : List Poly := [
  [⟨3125, 100000, [0, 0, 0, 0, 0]⟩, ⟨-3125, 100000, [0, 0, 0, 0, 1]⟩, ⟨-3125, 100000, [0, 0, 0, 1, 0]⟩, ⟨3125, 100000, [0, 0, 0, 1, 1]⟩, ⟨-3125, 100000, [0, 0, 1, 0, 0]⟩, ⟨3125, 100000, [0, 0, 1, 0, 1]⟩, ⟨3125, 100000, [0, 0, 1, 1, 0]⟩, ⟨-3125, 100000, [0, 0, 1, 1, 1]⟩, ⟨-3125, 100000, [0, 1, 0, 0, 0]⟩, ⟨3125, 100000, [0, 1, 0, 0, 1]⟩, ⟨3125, 100000, [0, 1, 0, 1, 0]⟩, ⟨-3125, 100000, [0, 1, 0, 1, 1]⟩, ⟨3125, 100000, [0, 1, 1, 0, 0]⟩, ⟨-3125, 100000, [0, 1, 1, 0, 1]⟩, ⟨-3125, 100000, [0, 1, 1, 1, 0]⟩, ⟨3125, 100000, [0, 1, 1, 1, 1]⟩, ⟨-3125, 100000, [1, 0, 0, 0, 0]⟩, ⟨3125, 100000, [1, 0, 0, 0, 1]⟩, ⟨3125, 100000, [1, 0, 0, 1, 0]⟩, ⟨-3125, 100000, [1, 0, 0, 1, 1]⟩, ⟨3125, 100000, [1, 0, 1, 0, 0]⟩, ⟨-3125, 100000, [1, 0, 1, 0, 1]⟩, ⟨-3125, 100000, [1, 0, 1, 1, 0]⟩, ⟨3125, 100000, [1, 0, 1, 1, 1]⟩, ⟨3125, 100000, [1, 1, 0, 0, 0]⟩, ⟨-3125, 100000, [1, 1, 0, 0, 1]⟩, ⟨-3125, 100000, [1, 1, 0, 1, 0]⟩, ⟨3125, 100000, [1, 1, 0, 1, 1]⟩, ⟨-3125, 100000, [1, 1, 1, 0, 0]⟩, ⟨3125, 100000, [1, 1, 1, 0, 1]⟩, ⟨3125, 100000, [1, 1, 1, 1, 0]⟩, ⟨-3125, 100000, [1, 1, 1, 1, 1]⟩],
  [⟨3125, 100000, [0, 0, 0, 0, 0]⟩, ⟨-3125, 100000, [0, 0, 0, 0, 1]⟩, ⟨-3125, 100000, [0, 0, 0, 1, 0]⟩, ⟨3125, 100000, [0, 0, 0, 1, 1]⟩, ⟨-3125, 100000, [0, 0, 1, 0, 0]⟩, ⟨3125, 100000, [0, 0, 1, 0, 1]⟩, ⟨3125, 100000, [0, 0, 1, 1, 0]⟩, ⟨-3125, 100000, [0, 0, 1, 1, 1]⟩, ⟨-3125, 100000, [0, 1, 0, 0, 0]⟩, ⟨3125, 100000, [0, 1, 0, 0, 1]⟩, ⟨3125, 100000, [0, 1, 0, 1, 0]⟩, ⟨-3125, 100000, [0, 1, 0, 1, 1]⟩, ⟨3125, 100000, [0, 1, 1, 0, 0]⟩, ⟨-3125, 100000, [0, 1, 1, 0, 1]⟩, ⟨-3125, 100000, [0, 1, 1, 1, 0]⟩, ⟨3125, 100000, [0, 1, 1, 1, 1]⟩, ⟨3125, 100000, [1, 0, 0, 0, 0]⟩, ⟨-3125, 100000, [1, 0, 0, 0, 1]⟩, ⟨-3125, 100000, [1, 0, 0, 1, 0]⟩, ⟨3125, 100000, [1, 0, 0, 1, 1]⟩, ⟨-3125, 100000, [1, 0, 1, 0, 0]⟩, ⟨3125, 100000, [1, 0, 1, 0, 1]⟩, ⟨3125, 100000, [1, 0, 1, 1, 0]⟩, ⟨-3125, 100000, [1, 0, 1, 1, 1]⟩, ⟨-3125, 100000, [1, 1, 0, 0, 0]⟩, ⟨3125, 100000, [1, 1, 0, 0, 1]⟩, ⟨3125, 100000, [1, 1, 0, 1, 0]⟩, ⟨-3125, 100000, [1, 1, 0, 1, 1]⟩, ⟨3125, 100000, [1, 1, 1, 0, 0]⟩, ⟨-3125, 100000, [1, 1, 1, 0, 1]⟩, ⟨-3125, 100000, [1, 1, 1, 1, 0]⟩, ⟨3125, 100000, [1, 1, 1, 1, 1]⟩],
  [⟨3125, 100000, [0, 0, 0, 0, 0]⟩, ⟨-3125, 100000, [0, 0, 0, 0, 1]⟩, ⟨-3125, 100000, [0, 0, 0, 1, 0]⟩, ⟨3125, 100000, [0, 0, 0, 1, 1]⟩, ⟨-3125, 100000, [0, 0, 1, 0, 0]⟩, ⟨3125, 100000, [0, 0, 1, 0, 1]⟩, ⟨3125, 100000, [0, 0, 1, 1, 0]⟩, ⟨-3125, 100000, [0, 0, 1, 1, 1]⟩, ⟨3125, 100000, [0, 1, 0, 0, 0]⟩, ⟨-3125, 100000, [0, 1, 0, 0, 1]⟩, ⟨-3125, 100000, [0, 1, 0, 1, 0]⟩, ⟨3125, 100000, [0, 1, 0, 1, 1]⟩, ⟨-3125, 100000, [0, 1, 1, 0, 0]⟩, ⟨3125, 100000, [0, 1, 1, 0, 1]⟩, ⟨3125, 100000, [0, 1, 1, 1, 0]⟩, ⟨-3125, 100000, [0, 1, 1, 1, 1]⟩, ⟨-3125, 100000, [1, 0, 0, 0, 0]⟩, ⟨3125, 100000, [1, 0, 0, 0, 1]⟩, ⟨3125, 100000, [1, 0, 0, 1, 0]⟩, ⟨-3125, 100000, [1, 0, 0, 1, 1]⟩, ⟨3125, 100000, [1, 0, 1, 0, 0]⟩, ⟨-3125, 100000, [1, 0, 1, 0, 1]⟩, ⟨-3125, 100000, [1, 0, 1, 1, 0]⟩, ⟨3125, 100000, [1, 0, 1, 1, 1]⟩, ⟨-3125, 100000, [1, 1, 0, 0, 0]⟩, ⟨3125, 100000, [1, 1, 0, 0, 1]⟩, ⟨3125, 100000, [1, 1, 0, 1, 0]⟩, ⟨-3125, 100000, [1, 1, 0, 1, 1]⟩, ⟨3125, 100000, [1, 1, 1, 0, 0]⟩, ⟨-3125, 100000, [1, 1, 1, 0, 1]⟩, ⟨-3125, 100000, [1, 1, 1, 1, 0]⟩, ⟨3125, 100000, [1, 1, 1, 1, 1]⟩],
  [⟨3125, 100000, [0, 0, 0, 0, 0]⟩, ⟨-3125, 100000, [0, 0, 0, 0, 1]⟩, ⟨-3125, 100000, [0, 0, 0, 1, 0]⟩, ⟨3125, 100000, [0, 0, 0, 1, 1]⟩, ⟨-3125, 100000, [0, 0, 1, 0, 0]⟩, ⟨3125, 100000, [0, 0, 1, 0, 1]⟩, ⟨3125, 100000, [0, 0, 1, 1, 0]⟩, ⟨-3125, 100000, [0, 0, 1, 1, 1]⟩, ⟨3125, 100000, [0, 1, 0, 0, 0]⟩, ⟨-3125, 100000, [0, 1, 0, 0, 1]⟩, ⟨-3125, 100000, [0, 1, 0, 1, 0]⟩, ⟨3125, 100000, [0, 1, 0, 1, 1]⟩, ⟨-3125, 100000, [0, 1, 1, 0, 0]⟩, ⟨3125, 100000, [0, 1, 1, 0, 1]⟩, ⟨3125, 100000, [0, 1, 1, 1, 0]⟩, ⟨-3125, 100000, [0, 1, 1, 1, 1]⟩, ⟨3125, 100000, [1, 0, 0, 0, 0]⟩, ⟨-3125, 100000, [1, 0, 0, 0, 1]⟩, ⟨-3125, 100000, [1, 0, 0, 1, 0]⟩, ⟨3125, 100000, [1, 0, 0, 1, 1]⟩, ⟨-3125, 100000, [1, 0, 1, 0, 0]⟩, ⟨3125, 100000, [1, 0, 1, 0, 1]⟩, ⟨3125, 100000, [1, 0, 1, 1, 0]⟩, ⟨-3125, 100000, [1, 0, 1, 1, 1]⟩, ⟨3125, 100000, [1, 1, 0, 0, 0]⟩, ⟨-3125, 100000, [1, 1, 0, 0, 1]⟩, ⟨-3125, 100000, [1, 1, 0, 1, 0]⟩, ⟨3125, 100000, [1, 1, 0, 1, 1]⟩, ⟨-3125, 100000, [1, 1, 1, 0, 0]⟩, ⟨3125, 100000, [1, 1, 1, 0, 1]⟩, ⟨3125, 100000, [1, 1, 1, 1, 0]⟩, ⟨-3125, 100000, [1, 1, 1, 1, 1]⟩],
  [⟨3125, 100000, [0, 0, 0, 0, 0]⟩, ⟨-3125, 100000, [0, 0, 0, 0, 1]⟩, ⟨-3125, 100000, [0, 0, 0, 1, 0]⟩, ⟨3125, 100000, [0, 0, 0, 1, 1]⟩, ⟨3125, 100000, [0, 0, 1, 0, 0]⟩, ⟨-3125, 100000, [0, 0, 1, 0, 1]⟩, ⟨-3125, 100000, [0, 0, 1, 1, 0]⟩, ⟨3125, 100000, [0, 0, 1, 1, 1]⟩, ⟨-3125, 100000, [0, 1, 0, 0, 0]⟩, ⟨3125, 100000, [0, 1, 0, 0, 1]⟩, ⟨3125, 100000, [0, 1, 0, 1, 0]⟩, ⟨-3125, 100000, [0, 1, 0, 1, 1]⟩, ⟨-3125, 100000, [0, 1, 1, 0, 0]⟩, ⟨3125, 100000, [0, 1, 1, 0, 1]⟩, ⟨3125, 100000, [0, 1, 1, 1, 0]⟩, ⟨-3125, 100000, [0, 1, 1, 1, 1]⟩, ⟨-3125, 100000, [1, 0, 0, 0, 0]⟩, ⟨3125, 100000, [1, 0, 0, 0, 1]⟩, ⟨3125, 100000, [1, 0, 0, 1, 0]⟩, ⟨-3125, 100000, [1, 0, 0, 1, 1]⟩, ⟨-3125, 100000, [1, 0, 1, 0, 0]⟩, ⟨3125, 100000, [1, 0, 1, 0, 1]⟩, ⟨3125, 100000, [1, 0, 1, 1, 0]⟩, ⟨-3125, 100000, [1, 0, 1, 1, 1]⟩, ⟨3125, 100000, [1, 1, 0, 0, 0]⟩, ⟨-3125, 100000, [1, 1, 0, 0, 1]⟩, ⟨-3125, 100000, [1, 1, 0, 1, 0]⟩, ⟨3125, 100000, [1, 1, 0, 1, 1]⟩, ⟨3125, 100000, [1, 1, 1, 0, 0]⟩, ⟨-3125, 100000, [1, 1, 1, 0, 1]⟩, ⟨-3125, 100000, [1, 1, 1, 1, 0]⟩, ⟨3125, 100000, [1, 1, 1, 1, 1]⟩],
  [⟨3125, 100000, [0, 0, 0, 0, 0]⟩, ⟨-3125, 100000, [0, 0, 0, 0, 1]⟩, ⟨-3125, 100000, [0, 0, 0, 1, 0]⟩, ⟨3125, 100000, [0, 0, 0, 1, 1]⟩, ⟨3125, 100000, [0, 0, 1, 0, 0]⟩, ⟨-3125, 100000, [0, 0, 1, 0, 1]⟩, ⟨-3125, 100000, [0, 0, 1, 1, 0]⟩, ⟨3125, 100000, [0, 0, 1, 1, 1]⟩, ⟨-3125, 100000, [0, 1, 0, 0, 0]⟩, ⟨3125, 100000, [0, 1, 0, 0, 1]⟩, ⟨3125, 100000, [0, 1, 0, 1, 0]⟩, ⟨-3125, 100000, [0, 1, 0, 1, 1]⟩, ⟨-3125, 100000, [0, 1, 1, 0, 0]⟩, ⟨3125, 100000, [0, 1, 1, 0, 1]⟩, ⟨3125, 100000, [0, 1, 1, 1, 0]⟩, ⟨-3125, 100000, [0, 1, 1, 1, 1]⟩, ⟨3125, 100000, [1, 0, 0, 0, 0]⟩, ⟨-3125, 100000, [1, 0, 0, 0, 1]⟩, ⟨-3125, 100000, [1, 0, 0, 1, 0]⟩, ⟨3125, 100000, [1, 0, 0, 1, 1]⟩, ⟨3125, 100000, [1, 0, 1, 0, 0]⟩, ⟨-3125, 100000, [1, 0, 1, 0, 1]⟩, ⟨-3125, 100000, [1, 0, 1, 1, 0]⟩, ⟨3125, 100000, [1, 0, 1, 1, 1]⟩, ⟨-3125, 100000, [1, 1, 0, 0, 0]⟩, ⟨3125, 100000, [1, 1, 0, 0, 1]⟩, ⟨3125, 100000, [1, 1, 0, 1, 0]⟩, ⟨-3125, 100000, [1, 1, 0, 1, 1]⟩, ⟨-3125, 100000, [1, 1, 1, 0, 0]⟩, ⟨3125, 100000, [1, 1, 1, 0, 1]⟩, ⟨3125, 100000, [1, 1, 1, 1, 0]⟩, ⟨-3125, 100000, [1, 1, 1, 1, 1]⟩],
  [⟨3125, 100000, [0, 0, 0, 0, 0]⟩, ⟨-3125, 100000, [0, 0, 0, 0, 1]⟩, ⟨-3125, 100000, [0, 0, 0, 1, 0]⟩, ⟨3125, 100000, [0, 0, 0, 1, 1]⟩, ⟨3125, 100000, [0, 0, 1, 0, 0]⟩, ⟨-3125, 100000, [0, 0, 1, 0, 1]⟩, ⟨-3125, 100000, [0, 0, 1, 1, 0]⟩, ⟨3125, 100000, [0, 0, 1, 1, 1]⟩, ⟨3125, 100000, [0, 1, 0, 0, 0]⟩, ⟨-3125, 100000, [0, 1, 0, 0, 1]⟩, ⟨-3125, 100000, [0, 1, 0, 1, 0]⟩, ⟨3125, 100000, [0, 1, 0, 1, 1]⟩, ⟨3125, 100000, [0, 1, 1, 0, 0]⟩, ⟨-3125, 100000, [0, 1, 1, 0, 1]⟩, ⟨-3125, 100000, [0, 1, 1, 1, 0]⟩, ⟨3125, 100000, [0, 1, 1, 1, 1]⟩, ⟨-3125, 100000, [1, 0, 0, 0, 0]⟩, ⟨3125, 100000, [1, 0, 0, 0, 1]⟩, ⟨3125, 100000, [1, 0, 0, 1, 0]⟩, ⟨-3125, 100000, [1, 0, 0, 1, 1]⟩, ⟨-3125, 100000, [1, 0, 1, 0, 0]⟩, ⟨3125, 100000, [1, 0, 1, 0, 1]⟩, ⟨3125, 100000, [1, 0, 1, 1, 0]⟩, ⟨-3125, 100000, [1, 0, 1, 1, 1]⟩, ⟨-3125, 100000, [1, 1, 0, 0, 0]⟩, ⟨3125, 100000, [1, 1, 0, 0, 1]⟩, ⟨3125, 100000, [1, 1, 0, 1, 0]⟩, ⟨-3125, 100000, [1, 1, 0, 1, 1]⟩, ⟨-3125, 100000, [1, 1, 1, 0, 0]⟩, ⟨3125, 100000, [1, 1, 1, 0, 1]⟩, ⟨3125, 100000, [1, 1, 1, 1, 0]⟩, ⟨-3125, 100000, [1, 1, 1, 1, 1]⟩],
  [⟨3125, 100000, [0, 0, 0, 0, 0]⟩, ⟨-3125, 100000, [0, 0, 0, 0, 1]⟩, ⟨-3125, 100000, [0, 0, 0, 1, 0]⟩, ⟨3125, 100000, [0, 0, 0, 1, 1]⟩, ⟨3125, 100000, [0, 0, 1, 0, 0]⟩, ⟨-3125, 100000, [0, 0, 1, 0, 1]⟩, ⟨-3125, 100000, [0, 0, 1, 1, 0]⟩, ⟨3125, 100000, [0, 0, 1, 1, 1]⟩, ⟨3125, 100000, [0, 1, 0, 0, 0]⟩, ⟨-3125, 100000, [0, 1, 0, 0, 1]⟩, ⟨-3125, 100000, [0, 1, 0, 1, 0]⟩, ⟨3125, 100000, [0, 1, 0, 1, 1]⟩, ⟨3125, 100000, [0, 1, 1, 0, 0]⟩, ⟨-3125, 100000, [0, 1, 1, 0, 1]⟩, ⟨-3125, 100000, [0, 1, 1, 1, 0]⟩, ⟨3125, 100000, [0, 1, 1, 1, 1]⟩, ⟨3125, 100000, [1, 0, 0, 0, 0]⟩, ⟨-3125, 100000, [1, 0, 0, 0, 1]⟩, ⟨-3125, 100000, [1, 0, 0, 1, 0]⟩, ⟨3125, 100000, [1, 0, 0, 1, 1]⟩, ⟨3125, 100000, [1, 0, 1, 0, 0]⟩, ⟨-3125, 100000, [1, 0, 1, 0, 1]⟩, ⟨-3125, 100000, [1, 0, 1, 1, 0]⟩, ⟨3125, 100000, [1, 0, 1, 1, 1]⟩, ⟨3125, 100000, [1, 1, 0, 0, 0]⟩, ⟨-3125, 100000, [1, 1, 0, 0, 1]⟩, ⟨-3125, 100000, [1, 1, 0, 1, 0]⟩, ⟨3125, 100000, [1, 1, 0, 1, 1]⟩, ⟨3125, 100000, [1, 1, 1, 0, 0]⟩, ⟨-3125, 100000, [1, 1, 1, 0, 1]⟩, ⟨-3125, 100000, [1, 1, 1, 1, 0]⟩, ⟨3125, 100000, [1, 1, 1, 1, 1]⟩],
  [⟨3125, 100000, [0, 0, 0, 0, 0]⟩, ⟨-3125, 100000, [0, 0, 0, 0, 1]⟩, ⟨3125, 100000, [0, 0, 0, 1, 0]⟩, ⟨-3125, 100000, [0, 0, 0, 1, 1]⟩, ⟨-3125, 100000, [0, 0, 1, 0, 0]⟩, ⟨3125, 100000, [0, 0, 1, 0, 1]⟩, ⟨-3125, 100000, [0, 0, 1, 1, 0]⟩, ⟨3125, 100000, [0, 0, 1, 1, 1]⟩, ⟨-3125, 100000, [0, 1, 0, 0, 0]⟩, ⟨3125, 100000, [0, 1, 0, 0, 1]⟩, ⟨-3125, 100000, [0, 1, 0, 1, 0]⟩, ⟨3125, 100000, [0, 1, 0, 1, 1]⟩, ⟨3125, 100000, [0, 1, 1, 0, 0]⟩, ⟨-3125, 100000, [0, 1, 1, 0, 1]⟩, ⟨3125, 100000, [0, 1, 1, 1, 0]⟩, ⟨-3125, 100000, [0, 1, 1, 1, 1]⟩, ⟨-3125, 100000, [1, 0, 0, 0, 0]⟩, ⟨3125, 100000, [1, 0, 0, 0, 1]⟩, ⟨-3125, 100000, [1, 0, 0, 1, 0]⟩, ⟨3125, 100000, [1, 0, 0, 1, 1]⟩, ⟨3125, 100000, [1, 0, 1, 0, 0]⟩, ⟨-3125, 100000, [1, 0, 1, 0, 1]⟩, ⟨3125, 100000, [1, 0, 1, 1, 0]⟩, ⟨-3125, 100000, [1, 0, 1, 1, 1]⟩, ⟨3125, 100000, [1, 1, 0, 0, 0]⟩, ⟨-3125, 100000, [1, 1, 0, 0, 1]⟩, ⟨3125, 100000, [1, 1, 0, 1, 0]⟩, ⟨-3125, 100000, [1, 1, 0, 1, 1]⟩, ⟨-3125, 100000, [1, 1, 1, 0, 0]⟩, ⟨3125, 100000, [1, 1, 1, 0, 1]⟩, ⟨-3125, 100000, [1, 1, 1, 1, 0]⟩, ⟨3125, 100000, [1, 1, 1, 1, 1]⟩],
  [⟨3125, 100000, [0, 0, 0, 0, 0]⟩, ⟨-3125, 100000, [0, 0, 0, 0, 1]⟩, ⟨3125, 100000, [0, 0, 0, 1, 0]⟩, ⟨-3125, 100000, [0, 0, 0, 1, 1]⟩, ⟨-3125, 100000, [0, 0, 1, 0, 0]⟩, ⟨3125, 100000, [0, 0, 1, 0, 1]⟩, ⟨-3125, 100000, [0, 0, 1, 1, 0]⟩, ⟨3125, 100000, [0, 0, 1, 1, 1]⟩, ⟨-3125, 100000, [0, 1, 0, 0, 0]⟩, ⟨3125, 100000, [0, 1, 0, 0, 1]⟩, ⟨-3125, 100000, [0, 1, 0, 1, 0]⟩, ⟨3125, 100000, [0, 1, 0, 1, 1]⟩, ⟨3125, 100000, [0, 1, 1, 0, 0]⟩, ⟨-3125, 100000, [0, 1, 1, 0, 1]⟩, ⟨3125, 100000, [0, 1, 1, 1, 0]⟩, ⟨-3125, 100000, [0, 1, 1, 1, 1]⟩, ⟨3125, 100000, [1, 0, 0, 0, 0]⟩, ⟨-3125, 100000, [1, 0, 0, 0, 1]⟩, ⟨3125, 100000, [1, 0, 0, 1, 0]⟩, ⟨-3125, 100000, [1, 0, 0, 1, 1]⟩, ⟨-3125, 100000, [1, 0, 1, 0, 0]⟩, ⟨3125, 100000, [1, 0, 1, 0, 1]⟩, ⟨-3125, 100000, [1, 0, 1, 1, 0]⟩, ⟨3125, 100000, [1, 0, 1, 1, 1]⟩, ⟨-3125, 100000, [1, 1, 0, 0, 0]⟩, ⟨3125, 100000, [1, 1, 0, 0, 1]⟩, ⟨-3125, 100000, [1, 1, 0, 1, 0]⟩, ⟨3125, 100000, [1, 1, 0, 1, 1]⟩, ⟨3125, 100000, [1, 1, 1, 0, 0]⟩, ⟨-3125, 100000, [1, 1, 1, 0, 1]⟩, ⟨3125, 100000, [1, 1, 1, 1, 0]⟩, ⟨-3125, 100000, [1, 1, 1, 1, 1]⟩],
  [⟨3125, 100000, [0, 0, 0, 0, 0]⟩, ⟨-3125, 100000, [0, 0, 0, 0, 1]⟩, ⟨3125, 100000, [0, 0, 0, 1, 0]⟩, ⟨-3125, 100000, [0, 0, 0, 1, 1]⟩, ⟨-3125, 100000, [0, 0, 1, 0, 0]⟩, ⟨3125, 100000, [0, 0, 1, 0, 1]⟩, ⟨-3125, 100000, [0, 0, 1, 1, 0]⟩, ⟨3125, 100000, [0, 0, 1, 1, 1]⟩, ⟨3125, 100000, [0, 1, 0, 0, 0]⟩, ⟨-3125, 100000, [0, 1, 0, 0, 1]⟩, ⟨3125, 100000, [0, 1, 0, 1, 0]⟩, ⟨-3125, 100000, [0, 1, 0, 1, 1]⟩, ⟨-3125, 100000, [0, 1, 1, 0, 0]⟩, ⟨3125, 100000, [0, 1, 1, 0, 1]⟩, ⟨-3125, 100000, [0, 1, 1, 1, 0]⟩, ⟨3125, 100000, [0, 1, 1, 1, 1]⟩, ⟨-3125, 100000, [1, 0, 0, 0, 0]⟩, ⟨3125, 100000, [1, 0, 0, 0, 1]⟩, ⟨-3125, 100000, [1, 0, 0, 1, 0]⟩, ⟨3125, 100000, [1, 0, 0, 1, 1]⟩, ⟨3125, 100000, [1, 0, 1, 0, 0]⟩, ⟨-3125, 100000, [1, 0, 1, 0, 1]⟩, ⟨3125, 100000, [1, 0, 1, 1, 0]⟩, ⟨-3125, 100000, [1, 0, 1, 1, 1]⟩, ⟨-3125, 100000, [1, 1, 0, 0, 0]⟩, ⟨3125, 100000, [1, 1, 0, 0, 1]⟩, ⟨-3125, 100000, [1, 1, 0, 1, 0]⟩, ⟨3125, 100000, [1, 1, 0, 1, 1]⟩, ⟨3125, 100000, [1, 1, 1, 0, 0]⟩, ⟨-3125, 100000, [1, 1, 1, 0, 1]⟩, ⟨3125, 100000, [1, 1, 1, 1, 0]⟩, ⟨-3125, 100000, [1, 1, 1, 1, 1]⟩],
  [⟨3125, 100000, [0, 0, 0, 0, 0]⟩, ⟨-3125, 100000, [0, 0, 0, 0, 1]⟩, ⟨3125, 100000, [0, 0, 0, 1, 0]⟩, ⟨-3125, 100000, [0, 0, 0, 1, 1]⟩, ⟨-3125, 100000, [0, 0, 1, 0, 0]⟩, ⟨3125, 100000, [0, 0, 1, 0, 1]⟩, ⟨-3125, 100000, [0, 0, 1, 1, 0]⟩, ⟨3125, 100000, [0, 0, 1, 1, 1]⟩, ⟨3125, 100000, [0, 1, 0, 0, 0]⟩, ⟨-3125, 100000, [0, 1, 0, 0, 1]⟩, ⟨3125, 100000, [0, 1, 0, 1, 0]⟩, ⟨-3125, 100000, [0, 1, 0, 1, 1]⟩, ⟨-3125, 100000, [0, 1, 1, 0, 0]⟩, ⟨3125, 100000, [0, 1, 1, 0, 1]⟩, ⟨-3125, 100000, [0, 1, 1, 1, 0]⟩, ⟨3125, 100000, [0, 1, 1, 1, 1]⟩, ⟨3125, 100000, [1, 0, 0, 0, 0]⟩, ⟨-3125, 100000, [1, 0, 0, 0, 1]⟩, ⟨3125, 100000, [1, 0, 0, 1, 0]⟩, ⟨-3125, 100000, [1, 0, 0, 1, 1]⟩, ⟨-3125, 100000, [1, 0, 1, 0, 0]⟩, ⟨3125, 100000, [1, 0, 1, 0, 1]⟩, ⟨-3125, 100000, [1, 0, 1, 1, 0]⟩, ⟨3125, 100000, [1, 0, 1, 1, 1]⟩, ⟨3125, 100000, [1, 1, 0, 0, 0]⟩, ⟨-3125, 100000, [1, 1, 0, 0, 1]⟩, ⟨3125, 100000, [1, 1, 0, 1, 0]⟩, ⟨-3125, 100000, [1, 1, 0, 1, 1]⟩, ⟨-3125, 100000, [1, 1, 1, 0, 0]⟩, ⟨3125, 100000, [1, 1, 1, 0, 1]⟩, ⟨-3125, 100000, [1, 1, 1, 1, 0]⟩, ⟨3125, 100000, [1, 1, 1, 1, 1]⟩],
  [⟨3125, 100000, [0, 0, 0, 0, 0]⟩, ⟨-3125, 100000, [0, 0, 0, 0, 1]⟩, ⟨3125, 100000, [0, 0, 0, 1, 0]⟩, ⟨-3125, 100000, [0, 0, 0, 1, 1]⟩, ⟨3125, 100000, [0, 0, 1, 0, 0]⟩, ⟨-3125, 100000, [0, 0, 1, 0, 1]⟩, ⟨3125, 100000, [0, 0, 1, 1, 0]⟩, ⟨-3125, 100000, [0, 0, 1, 1, 1]⟩, ⟨-3125, 100000, [0, 1, 0, 0, 0]⟩, ⟨3125, 100000, [0, 1, 0, 0, 1]⟩, ⟨-3125, 100000, [0, 1, 0, 1, 0]⟩, ⟨3125, 100000, [0, 1, 0, 1, 1]⟩, ⟨-3125, 100000, [0, 1, 1, 0, 0]⟩, ⟨3125, 100000, [0, 1, 1, 0, 1]⟩, ⟨-3125, 100000, [0, 1, 1, 1, 0]⟩, ⟨3125, 100000, [0, 1, 1, 1, 1]⟩, ⟨-3125, 100000, [1, 0, 0, 0, 0]⟩, ⟨3125, 100000, [1, 0, 0, 0, 1]⟩, ⟨-3125, 100000, [1, 0, 0, 1, 0]⟩, ⟨3125, 100000, [1, 0, 0, 1, 1]⟩, ⟨-3125, 100000, [1, 0, 1, 0, 0]⟩, ⟨3125, 100000, [1, 0, 1, 0, 1]⟩, ⟨-3125, 100000, [1, 0, 1, 1, 0]⟩, ⟨3125, 100000, [1, 0, 1, 1, 1]⟩, ⟨3125, 100000, [1, 1, 0, 0, 0]⟩, ⟨-3125, 100000, [1, 1, 0, 0, 1]⟩, ⟨3125, 100000, [1, 1, 0, 1, 0]⟩, ⟨-3125, 100000, [1, 1, 0, 1, 1]⟩, ⟨3125, 100000, [1, 1, 1, 0, 0]⟩, ⟨-3125, 100000, [1, 1, 1, 0, 1]⟩, ⟨3125, 100000, [1, 1, 1, 1, 0]⟩, ⟨-3125, 100000, [1, 1, 1, 1, 1]⟩],
  [⟨3125, 100000, [0, 0, 0, 0, 0]⟩, ⟨-3125, 100000, [0, 0, 0, 0, 1]⟩, ⟨3125, 100000, [0, 0, 0, 1, 0]⟩, ⟨-3125, 100000, [0, 0, 0, 1, 1]⟩, ⟨3125, 100000, [0, 0, 1, 0, 0]⟩, ⟨-3125, 100000, [0, 0, 1, 0, 1]⟩, ⟨3125, 100000, [0, 0, 1, 1, 0]⟩, ⟨-3125, 100000, [0, 0, 1, 1, 1]⟩, ⟨-3125, 100000, [0, 1, 0, 0, 0]⟩, ⟨3125, 100000, [0, 1, 0, 0, 1]⟩, ⟨-3125, 100000, [0, 1, 0, 1, 0]⟩, ⟨3125, 100000, [0, 1, 0, 1, 1]⟩, ⟨-3125, 100000, [0, 1, 1, 0, 0]⟩, ⟨3125, 100000, [0, 1, 1, 0, 1]⟩, ⟨-3125, 100000, [0, 1, 1, 1, 0]⟩, ⟨3125, 100000, [0, 1, 1, 1, 1]⟩, ⟨3125, 100000, [1, 0, 0, 0, 0]⟩, ⟨-3125, 100000, [1, 0, 0, 0, 1]⟩, ⟨3125, 100000, [1, 0, 0, 1, 0]⟩, ⟨-3125, 100000, [1, 0, 0, 1, 1]⟩, ⟨3125, 100000, [1, 0, 1, 0, 0]⟩, ⟨-3125, 100000, [1, 0, 1, 0, 1]⟩, ⟨3125, 100000, [1, 0, 1, 1, 0]⟩, ⟨-3125, 100000, [1, 0, 1, 1, 1]⟩, ⟨-3125, 100000, [1, 1, 0, 0, 0]⟩, ⟨3125, 100000, [1, 1, 0, 0, 1]⟩, ⟨-3125, 100000, [1, 1, 0, 1, 0]⟩, ⟨3125, 100000, [1, 1, 0, 1, 1]⟩, ⟨-3125, 100000, [1, 1, 1, 0, 0]⟩, ⟨3125, 100000, [1, 1, 1, 0, 1]⟩, ⟨-3125, 100000, [1, 1, 1, 1, 0]⟩, ⟨3125, 100000, [1, 1, 1, 1, 1]⟩],
  [⟨3125, 100000, [0, 0, 0, 0, 0]⟩, ⟨-3125, 100000, [0, 0, 0, 0, 1]⟩, ⟨3125, 100000, [0, 0, 0, 1, 0]⟩, ⟨-3125, 100000, [0, 0, 0, 1, 1]⟩, ⟨3125, 100000, [0, 0, 1, 0, 0]⟩, ⟨-3125, 100000, [0, 0, 1, 0, 1]⟩, ⟨3125, 100000, [0, 0, 1, 1, 0]⟩, ⟨-3125, 100000, [0, 0, 1, 1, 1]⟩, ⟨3125, 100000, [0, 1, 0, 0, 0]⟩, ⟨-3125, 100000, [0, 1, 0, 0, 1]⟩, ⟨3125, 100000, [0, 1, 0, 1, 0]⟩, ⟨-3125, 100000, [0, 1, 0, 1, 1]⟩, ⟨3125, 100000, [0, 1, 1, 0, 0]⟩, ⟨-3125, 100000, [0, 1, 1, 0, 1]⟩, ⟨3125, 100000, [0, 1, 1, 1, 0]⟩, ⟨-3125, 100000, [0, 1, 1, 1, 1]⟩, ⟨-3125, 100000, [1, 0, 0, 0, 0]⟩, ⟨3125, 100000, [1, 0, 0, 0, 1]⟩, ⟨-3125, 100000, [1, 0, 0, 1, 0]⟩, ⟨3125, 100000, [1, 0, 0, 1, 1]⟩, ⟨-3125, 100000, [1, 0, 1, 0, 0]⟩, ⟨3125, 100000, [1, 0, 1, 0, 1]⟩, ⟨-3125, 100000, [1, 0, 1, 1, 0]⟩, ⟨3125, 100000, [1, 0, 1, 1, 1]⟩, ⟨-3125, 100000, [1, 1, 0, 0, 0]⟩, ⟨3125, 100000, [1, 1, 0, 0, 1]⟩, ⟨-3125, 100000, [1, 1, 0, 1, 0]⟩, ⟨3125, 100000, [1, 1, 0, 1, 1]⟩, ⟨-3125, 100000, [1, 1, 1, 0, 0]⟩, ⟨3125, 100000, [1, 1, 1, 0, 1]⟩, ⟨-3125, 100000, [1, 1, 1, 1, 0]⟩, ⟨3125, 100000, [1, 1, 1, 1, 1]⟩],
  [⟨3125, 100000, [0, 0, 0, 0, 0]⟩, ⟨-3125, 100000, [0, 0, 0, 0, 1]⟩, ⟨3125, 100000, [0, 0, 0, 1, 0]⟩, ⟨-3125, 100000, [0, 0, 0, 1, 1]⟩, ⟨3125, 100000, [0, 0, 1, 0, 0]⟩, ⟨-3125, 100000, [0, 0, 1, 0, 1]⟩, ⟨3125, 100000, [0, 0, 1, 1, 0]⟩, ⟨-3125, 100000, [0, 0, 1, 1, 1]⟩, ⟨3125, 100000, [0, 1, 0, 0, 0]⟩, ⟨-3125, 100000, [0, 1, 0, 0, 1]⟩, ⟨3125, 100000, [0, 1, 0, 1, 0]⟩, ⟨-3125, 100000, [0, 1, 0, 1, 1]⟩, ⟨3125, 100000, [0, 1, 1, 0, 0]⟩, ⟨-3125, 100000, [0, 1, 1, 0, 1]⟩, ⟨3125, 100000, [0, 1, 1, 1, 0]⟩, ⟨-3125, 100000, [0, 1, 1, 1, 1]⟩, ⟨3125, 100000, [1, 0, 0, 0, 0]⟩, ⟨-3125, 100000, [1, 0, 0, 0, 1]⟩, ⟨3125, 100000, [1, 0, 0, 1, 0]⟩, ⟨-3125, 100000, [1, 0, 0, 1, 1]⟩, ⟨3125, 100000, [1, 0, 1, 0, 0]⟩, ⟨-3125, 100000, [1, 0, 1, 0, 1]⟩, ⟨3125, 100000, [1, 0, 1, 1, 0]⟩, ⟨-3125, 100000, [1, 0, 1, 1, 1]⟩, ⟨3125, 100000, [1, 1, 0, 0, 0]⟩, ⟨-3125, 100000, [1, 1, 0, 0, 1]⟩, ⟨3125, 100000, [1, 1, 0, 1, 0]⟩, ⟨-3125, 100000, [1, 1, 0, 1, 1]⟩, ⟨3125, 100000, [1, 1, 1, 0, 0]⟩, ⟨-3125, 100000, [1, 1, 1, 0, 1]⟩, ⟨3125, 100000, [1, 1, 1, 1, 0]⟩, ⟨-3125, 100000, [1, 1, 1, 1, 1]⟩],
  [⟨3125, 100000, [0, 0, 0, 0, 0]⟩, ⟨3125, 100000, [0, 0, 0, 0, 1]⟩, ⟨-3125, 100000, [0, 0, 0, 1, 0]⟩, ⟨-3125, 100000, [0, 0, 0, 1, 1]⟩, ⟨-3125, 100000, [0, 0, 1, 0, 0]⟩, ⟨-3125, 100000, [0, 0, 1, 0, 1]⟩, ⟨3125, 100000, [0, 0, 1, 1, 0]⟩, ⟨3125, 100000, [0, 0, 1, 1, 1]⟩, ⟨-3125, 100000, [0, 1, 0, 0, 0]⟩, ⟨-3125, 100000, [0, 1, 0, 0, 1]⟩, ⟨3125, 100000, [0, 1, 0, 1, 0]⟩, ⟨3125, 100000, [0, 1, 0, 1, 1]⟩, ⟨3125, 100000, [0, 1, 1, 0, 0]⟩, ⟨3125, 100000, [0, 1, 1, 0, 1]⟩, ⟨-3125, 100000, [0, 1, 1, 1, 0]⟩, ⟨-3125, 100000, [0, 1, 1, 1, 1]⟩, ⟨-3125, 100000, [1, 0, 0, 0, 0]⟩, ⟨-3125, 100000, [1, 0, 0, 0, 1]⟩, ⟨3125, 100000, [1, 0, 0, 1, 0]⟩, ⟨3125, 100000, [1, 0, 0, 1, 1]⟩, ⟨3125, 100000, [1, 0, 1, 0, 0]⟩, ⟨3125, 100000, [1, 0, 1, 0, 1]⟩, ⟨-3125, 100000, [1, 0, 1, 1, 0]⟩, ⟨-3125, 100000, [1, 0, 1, 1, 1]⟩, ⟨3125, 100000, [1, 1, 0, 0, 0]⟩, ⟨3125, 100000, [1, 1, 0, 0, 1]⟩, ⟨-3125, 100000, [1, 1, 0, 1, 0]⟩, ⟨-3125, 100000, [1, 1, 0, 1, 1]⟩, ⟨-3125, 100000, [1, 1, 1, 0, 0]⟩, ⟨-3125, 100000, [1, 1, 1, 0, 1]⟩, ⟨3125, 100000, [1, 1, 1, 1, 0]⟩, ⟨3125, 100000, [1, 1, 1, 1, 1]⟩],
  [⟨3125, 100000, [0, 0, 0, 0, 0]⟩, ⟨3125, 100000, [0, 0, 0, 0, 1]⟩, ⟨-3125, 100000, [0, 0, 0, 1, 0]⟩, ⟨-3125, 100000, [0, 0, 0, 1, 1]⟩, ⟨-3125, 100000, [0, 0, 1, 0, 0]⟩, ⟨-3125, 100000, [0, 0, 1, 0, 1]⟩, ⟨3125, 100000, [0, 0, 1, 1, 0]⟩, ⟨3125, 100000, [0, 0, 1, 1, 1]⟩, ⟨-3125, 100000, [0, 1, 0, 0, 0]⟩, ⟨-3125, 100000, [0, 1, 0, 0, 1]⟩, ⟨3125, 100000, [0, 1, 0, 1, 0]⟩, ⟨3125, 100000, [0, 1, 0, 1, 1]⟩, ⟨3125, 100000, [0, 1, 1, 0, 0]⟩, ⟨3125, 100000, [0, 1, 1, 0, 1]⟩, ⟨-3125, 100000, [0, 1, 1, 1, 0]⟩, ⟨-3125, 100000, [0, 1, 1, 1, 1]⟩, ⟨3125, 100000, [1, 0, 0, 0, 0]⟩, ⟨3125, 100000, [1, 0, 0, 0, 1]⟩, ⟨-3125, 100000, [1, 0, 0, 1, 0]⟩, ⟨-3125, 100000, [1, 0, 0, 1, 1]⟩, ⟨-3125, 100000, [1, 0, 1, 0, 0]⟩, ⟨-3125, 100000, [1, 0, 1, 0, 1]⟩, ⟨3125, 100000, [1, 0, 1, 1, 0]⟩, ⟨3125, 100000, [1, 0, 1, 1, 1]⟩, ⟨-3125, 100000, [1, 1, 0, 0, 0]⟩, ⟨-3125, 100000, [1, 1, 0, 0, 1]⟩, ⟨3125, 100000, [1, 1, 0, 1, 0]⟩, ⟨3125, 100000, [1, 1, 0, 1, 1]⟩, ⟨3125, 100000, [1, 1, 1, 0, 0]⟩, ⟨3125, 100000, [1, 1, 1, 0, 1]⟩, ⟨-3125, 100000, [1, 1, 1, 1, 0]⟩, ⟨-3125, 100000, [1, 1, 1, 1, 1]⟩],
  [⟨3125, 100000, [0, 0, 0, 0, 0]⟩, ⟨3125, 100000, [0, 0, 0, 0, 1]⟩, ⟨-3125, 100000, [0, 0, 0, 1, 0]⟩, ⟨-3125, 100000, [0, 0, 0, 1, 1]⟩, ⟨-3125, 100000, [0, 0, 1, 0, 0]⟩, ⟨-3125, 100000, [0, 0, 1, 0, 1]⟩, ⟨3125, 100000, [0, 0, 1, 1, 0]⟩, ⟨3125, 100000, [0, 0, 1, 1, 1]⟩, ⟨3125, 100000, [0, 1, 0, 0, 0]⟩, ⟨3125, 100000, [0, 1, 0, 0, 1]⟩, ⟨-3125, 100000, [0, 1, 0, 1, 0]⟩, ⟨-3125, 100000, [0, 1, 0, 1, 1]⟩, ⟨-3125, 100000, [0, 1, 1, 0, 0]⟩, ⟨-3125, 100000, [0, 1, 1, 0, 1]⟩, ⟨3125, 100000, [0, 1, 1, 1, 0]⟩, ⟨3125, 100000, [0, 1, 1, 1, 1]⟩, ⟨-3125, 100000, [1, 0, 0, 0, 0]⟩, ⟨-3125, 100000, [1, 0, 0, 0, 1]⟩, ⟨3125, 100000, [1, 0, 0, 1, 0]⟩, ⟨3125, 100000, [1, 0, 0, 1, 1]⟩, ⟨3125, 100000, [1, 0, 1, 0, 0]⟩, ⟨3125, 100000, [1, 0, 1, 0, 1]⟩, ⟨-3125, 100000, [1, 0, 1, 1, 0]⟩, ⟨-3125, 100000, [1, 0, 1, 1, 1]⟩, ⟨-3125, 100000, [1, 1, 0, 0, 0]⟩, ⟨-3125, 100000, [1, 1, 0, 0, 1]⟩, ⟨3125, 100000, [1, 1, 0, 1, 0]⟩, ⟨3125, 100000, [1, 1, 0, 1, 1]⟩, ⟨3125, 100000, [1, 1, 1, 0, 0]⟩, ⟨3125, 100000, [1, 1, 1, 0, 1]⟩, ⟨-3125, 100000, [1, 1, 1, 1, 0]⟩, ⟨-3125, 100000, [1, 1, 1, 1, 1]⟩],
  [⟨3125, 100000, [0, 0, 0, 0, 0]⟩, ⟨3125, 100000, [0, 0, 0, 0, 1]⟩, ⟨-3125, 100000, [0, 0, 0, 1, 0]⟩, ⟨-3125, 100000, [0, 0, 0, 1, 1]⟩, ⟨-3125, 100000, [0, 0, 1, 0, 0]⟩, ⟨-3125, 100000, [0, 0, 1, 0, 1]⟩, ⟨3125, 100000, [0, 0, 1, 1, 0]⟩, ⟨3125, 100000, [0, 0, 1, 1, 1]⟩, ⟨3125, 100000, [0, 1, 0, 0, 0]⟩, ⟨3125, 100000, [0, 1, 0, 0, 1]⟩, ⟨-3125, 100000, [0, 1, 0, 1, 0]⟩, ⟨-3125, 100000, [0, 1, 0, 1, 1]⟩, ⟨-3125, 100000, [0, 1, 1, 0, 0]⟩, ⟨-3125, 100000, [0, 1, 1, 0, 1]⟩, ⟨3125, 100000, [0, 1, 1, 1, 0]⟩, ⟨3125, 100000, [0, 1, 1, 1, 1]⟩, ⟨3125, 100000, [1, 0, 0, 0, 0]⟩, ⟨3125, 100000, [1, 0, 0, 0, 1]⟩, ⟨-3125, 100000, [1, 0, 0, 1, 0]⟩, ⟨-3125, 100000, [1, 0, 0, 1, 1]⟩, ⟨-3125, 100000, [1, 0, 1, 0, 0]⟩, ⟨-3125, 100000, [1, 0, 1, 0, 1]⟩, ⟨3125, 100000, [1, 0, 1, 1, 0]⟩, ⟨3125, 100000, [1, 0, 1, 1, 1]⟩, ⟨3125, 100000, [1, 1, 0, 0, 0]⟩, ⟨3125, 100000, [1, 1, 0, 0, 1]⟩, ⟨-3125, 100000, [1, 1, 0, 1, 0]⟩, ⟨-3125, 100000, [1, 1, 0, 1, 1]⟩, ⟨-3125, 100000, [1, 1, 1, 0, 0]⟩, ⟨-3125, 100000, [1, 1, 1, 0, 1]⟩, ⟨3125, 100000, [1, 1, 1, 1, 0]⟩, ⟨3125, 100000, [1, 1, 1, 1, 1]⟩],
  [⟨3125, 100000, [0, 0, 0, 0, 0]⟩, ⟨3125, 100000, [0, 0, 0, 0, 1]⟩, ⟨-3125, 100000, [0, 0, 0, 1, 0]⟩, ⟨-3125, 100000, [0, 0, 0, 1, 1]⟩, ⟨3125, 100000, [0, 0, 1, 0, 0]⟩, ⟨3125, 100000, [0, 0, 1, 0, 1]⟩, ⟨-3125, 100000, [0, 0, 1, 1, 0]⟩, ⟨-3125, 100000, [0, 0, 1, 1, 1]⟩, ⟨-3125, 100000, [0, 1, 0, 0, 0]⟩, ⟨-3125, 100000, [0, 1, 0, 0, 1]⟩, ⟨3125, 100000, [0, 1, 0, 1, 0]⟩, ⟨3125, 100000, [0, 1, 0, 1, 1]⟩, ⟨-3125, 100000, [0, 1, 1, 0, 0]⟩, ⟨-3125, 100000, [0, 1, 1, 0, 1]⟩, ⟨3125, 100000, [0, 1, 1, 1, 0]⟩, ⟨3125, 100000, [0, 1, 1, 1, 1]⟩, ⟨-3125, 100000, [1, 0, 0, 0, 0]⟩, ⟨-3125, 100000, [1, 0, 0, 0, 1]⟩, ⟨3125, 100000, [1, 0, 0, 1, 0]⟩, ⟨3125, 100000, [1, 0, 0, 1, 1]⟩, ⟨-3125, 100000, [1, 0, 1, 0, 0]⟩, ⟨-3125, 100000, [1, 0, 1, 0, 1]⟩, ⟨3125, 100000, [1, 0, 1, 1, 0]⟩, ⟨3125, 100000, [1, 0, 1, 1, 1]⟩, ⟨3125, 100000, [1, 1, 0, 0, 0]⟩, ⟨3125, 100000, [1, 1, 0, 0, 1]⟩, ⟨-3125, 100000, [1, 1, 0, 1, 0]⟩, ⟨-3125, 100000, [1, 1, 0, 1, 1]⟩, ⟨3125, 100000, [1, 1, 1, 0, 0]⟩, ⟨3125, 100000, [1, 1, 1, 0, 1]⟩, ⟨-3125, 100000, [1, 1, 1, 1, 0]⟩, ⟨-3125, 100000, [1, 1, 1, 1, 1]⟩],
  [⟨3125, 100000, [0, 0, 0, 0, 0]⟩, ⟨3125, 100000, [0, 0, 0, 0, 1]⟩, ⟨-3125, 100000, [0, 0, 0, 1, 0]⟩, ⟨-3125, 100000, [0, 0, 0, 1, 1]⟩, ⟨3125, 100000, [0, 0, 1, 0, 0]⟩, ⟨3125, 100000, [0, 0, 1, 0, 1]⟩, ⟨-3125, 100000, [0, 0, 1, 1, 0]⟩, ⟨-3125, 100000, [0, 0, 1, 1, 1]⟩, ⟨-3125, 100000, [0, 1, 0, 0, 0]⟩, ⟨-3125, 100000, [0, 1, 0, 0, 1]⟩, ⟨3125, 100000, [0, 1, 0, 1, 0]⟩, ⟨3125, 100000, [0, 1, 0, 1, 1]⟩, ⟨-3125, 100000, [0, 1, 1, 0, 0]⟩, ⟨-3125, 100000, [0, 1, 1, 0, 1]⟩, ⟨3125, 100000, [0, 1, 1, 1, 0]⟩, ⟨3125, 100000, [0, 1, 1, 1, 1]⟩, ⟨3125, 100000, [1, 0, 0, 0, 0]⟩, ⟨3125, 100000, [1, 0, 0, 0, 1]⟩, ⟨-3125, 100000, [1, 0, 0, 1, 0]⟩, ⟨-3125, 100000, [1, 0, 0, 1, 1]⟩, ⟨3125, 100000, [1, 0, 1, 0, 0]⟩, ⟨3125, 100000, [1, 0, 1, 0, 1]⟩, ⟨-3125, 100000, [1, 0, 1, 1, 0]⟩, ⟨-3125, 100000, [1, 0, 1, 1, 1]⟩, ⟨-3125, 100000, [1, 1, 0, 0, 0]⟩, ⟨-3125, 100000, [1, 1, 0, 0, 1]⟩, ⟨3125, 100000, [1, 1, 0, 1, 0]⟩, ⟨3125, 100000, [1, 1, 0, 1, 1]⟩, ⟨-3125, 100000, [1, 1, 1, 0, 0]⟩, ⟨-3125, 100000, [1, 1, 1, 0, 1]⟩, ⟨3125, 100000, [1, 1, 1, 1, 0]⟩, ⟨3125, 100000, [1, 1, 1, 1, 1]⟩],
  [⟨3125, 100000, [0, 0, 0, 0, 0]⟩, ⟨3125, 100000, [0, 0, 0, 0, 1]⟩, ⟨-3125, 100000, [0, 0, 0, 1, 0]⟩, ⟨-3125, 100000, [0, 0, 0, 1, 1]⟩, ⟨3125, 100000, [0, 0, 1, 0, 0]⟩, ⟨3125, 100000, [0, 0, 1, 0, 1]⟩, ⟨-3125, 100000, [0, 0, 1, 1, 0]⟩, ⟨-3125, 100000, [0, 0, 1, 1, 1]⟩, ⟨3125, 100000, [0, 1, 0, 0, 0]⟩, ⟨3125, 100000, [0, 1, 0, 0, 1]⟩, ⟨-3125, 100000, [0, 1, 0, 1, 0]⟩, ⟨-3125, 100000, [0, 1, 0, 1, 1]⟩, ⟨3125, 100000, [0, 1, 1, 0, 0]⟩, ⟨3125, 100000, [0, 1, 1, 0, 1]⟩, ⟨-3125, 100000, [0, 1, 1, 1, 0]⟩, ⟨-3125, 100000, [0, 1, 1, 1, 1]⟩, ⟨-3125, 100000, [1, 0, 0, 0, 0]⟩, ⟨-3125, 100000, [1, 0, 0, 0, 1]⟩, ⟨3125, 100000, [1, 0, 0, 1, 0]⟩, ⟨3125, 100000, [1, 0, 0, 1, 1]⟩, ⟨-3125, 100000, [1, 0, 1, 0, 0]⟩, ⟨-3125, 100000, [1, 0, 1, 0, 1]⟩, ⟨3125, 100000, [1, 0, 1, 1, 0]⟩, ⟨3125, 100000, [1, 0, 1, 1, 1]⟩, ⟨-3125, 100000, [1, 1, 0, 0, 0]⟩, ⟨-3125, 100000, [1, 1, 0, 0, 1]⟩, ⟨3125, 100000, [1, 1, 0, 1, 0]⟩, ⟨3125, 100000, [1, 1, 0, 1, 1]⟩, ⟨-3125, 100000, [1, 1, 1, 0, 0]⟩, ⟨-3125, 100000, [1, 1, 1, 0, 1]⟩, ⟨3125, 100000, [1, 1, 1, 1, 0]⟩, ⟨3125, 100000, [1, 1, 1, 1, 1]⟩],
  [⟨3125, 100000, [0, 0, 0, 0, 0]⟩, ⟨3125, 100000, [0, 0, 0, 0, 1]⟩, ⟨-3125, 100000, [0, 0, 0, 1, 0]⟩, ⟨-3125, 100000, [0, 0, 0, 1, 1]⟩, ⟨3125, 100000, [0, 0, 1, 0, 0]⟩, ⟨3125, 100000, [0, 0, 1, 0, 1]⟩, ⟨-3125, 100000, [0, 0, 1, 1, 0]⟩, ⟨-3125, 100000, [0, 0, 1, 1, 1]⟩, ⟨3125, 100000, [0, 1, 0, 0, 0]⟩, ⟨3125, 100000, [0, 1, 0, 0, 1]⟩, ⟨-3125, 100000, [0, 1, 0, 1, 0]⟩, ⟨-3125, 100000, [0, 1, 0, 1, 1]⟩, ⟨3125, 100000, [0, 1, 1, 0, 0]⟩, ⟨3125, 100000, [0, 1, 1, 0, 1]⟩, ⟨-3125, 100000, [0, 1, 1, 1, 0]⟩, ⟨-3125, 100000, [0, 1, 1, 1, 1]⟩, ⟨3125, 100000, [1, 0, 0, 0, 0]⟩, ⟨3125, 100000, [1, 0, 0, 0, 1]⟩, ⟨-3125, 100000, [1, 0, 0, 1, 0]⟩, ⟨-3125, 100000, [1, 0, 0, 1, 1]⟩, ⟨3125, 100000, [1, 0, 1, 0, 0]⟩, ⟨3125, 100000, [1, 0, 1, 0, 1]⟩, ⟨-3125, 100000, [1, 0, 1, 1, 0]⟩, ⟨-3125, 100000, [1, 0, 1, 1, 1]⟩, ⟨3125, 100000, [1, 1, 0, 0, 0]⟩, ⟨3125, 100000, [1, 1, 0, 0, 1]⟩, ⟨-3125, 100000, [1, 1, 0, 1, 0]⟩, ⟨-3125, 100000, [1, 1, 0, 1, 1]⟩, ⟨3125, 100000, [1, 1, 1, 0, 0]⟩, ⟨3125, 100000, [1, 1, 1, 0, 1]⟩, ⟨-3125, 100000, [1, 1, 1, 1, 0]⟩, ⟨-3125, 100000, [1, 1, 1, 1, 1]⟩],
  [⟨3125, 100000, [0, 0, 0, 0, 0]⟩, ⟨3125, 100000, [0, 0, 0, 0, 1]⟩, ⟨3125, 100000, [0, 0, 0, 1, 0]⟩, ⟨3125, 100000, [0, 0, 0, 1, 1]⟩, ⟨-3125, 100000, [0, 0, 1, 0, 0]⟩, ⟨-3125, 100000, [0, 0, 1, 0, 1]⟩, ⟨-3125, 100000, [0, 0, 1, 1, 0]⟩, ⟨-3125, 100000, [0, 0, 1, 1, 1]⟩, ⟨-3125, 100000, [0, 1, 0, 0, 0]⟩, ⟨-3125, 100000, [0, 1, 0, 0, 1]⟩, ⟨-3125, 100000, [0, 1, 0, 1, 0]⟩, ⟨-3125, 100000, [0, 1, 0, 1, 1]⟩, ⟨3125, 100000, [0, 1, 1, 0, 0]⟩, ⟨3125, 100000, [0, 1, 1, 0, 1]⟩, ⟨3125, 100000, [0, 1, 1, 1, 0]⟩, ⟨3125, 100000, [0, 1, 1, 1, 1]⟩, ⟨-3125, 100000, [1, 0, 0, 0, 0]⟩, ⟨-3125, 100000, [1, 0, 0, 0, 1]⟩, ⟨-3125, 100000, [1, 0, 0, 1, 0]⟩, ⟨-3125, 100000, [1, 0, 0, 1, 1]⟩, ⟨3125, 100000, [1, 0, 1, 0, 0]⟩, ⟨3125, 100000, [1, 0, 1, 0, 1]⟩, ⟨3125, 100000, [1, 0, 1, 1, 0]⟩, ⟨3125, 100000, [1, 0, 1, 1, 1]⟩, ⟨3125, 100000, [1, 1, 0, 0, 0]⟩, ⟨3125, 100000, [1, 1, 0, 0, 1]⟩, ⟨3125, 100000, [1, 1, 0, 1, 0]⟩, ⟨3125, 100000, [1, 1, 0, 1, 1]⟩, ⟨-3125, 100000, [1, 1, 1, 0, 0]⟩, ⟨-3125, 100000, [1, 1, 1, 0, 1]⟩, ⟨-3125, 100000, [1, 1, 1, 1, 0]⟩, ⟨-3125, 100000, [1, 1, 1, 1, 1]⟩],
  [⟨3125, 100000, [0, 0, 0, 0, 0]⟩, ⟨3125, 100000, [0, 0, 0, 0, 1]⟩, ⟨3125, 100000, [0, 0, 0, 1, 0]⟩, ⟨3125, 100000, [0, 0, 0, 1, 1]⟩, ⟨-3125, 100000, [0, 0, 1, 0, 0]⟩, ⟨-3125, 100000, [0, 0, 1, 0, 1]⟩, ⟨-3125, 100000, [0, 0, 1, 1, 0]⟩, ⟨-3125, 100000, [0, 0, 1, 1, 1]⟩, ⟨-3125, 100000, [0, 1, 0, 0, 0]⟩, ⟨-3125, 100000, [0, 1, 0, 0, 1]⟩, ⟨-3125, 100000, [0, 1, 0, 1, 0]⟩, ⟨-3125, 100000, [0, 1, 0, 1, 1]⟩, ⟨3125, 100000, [0, 1, 1, 0, 0]⟩, ⟨3125, 100000, [0, 1, 1, 0, 1]⟩, ⟨3125, 100000, [0, 1, 1, 1, 0]⟩, ⟨3125, 100000, [0, 1, 1, 1, 1]⟩, ⟨3125, 100000, [1, 0, 0, 0, 0]⟩, ⟨3125, 100000, [1, 0, 0, 0, 1]⟩, ⟨3125, 100000, [1, 0, 0, 1, 0]⟩, ⟨3125, 100000, [1, 0, 0, 1, 1]⟩, ⟨-3125, 100000, [1, 0, 1, 0, 0]⟩, ⟨-3125, 100000, [1, 0, 1, 0, 1]⟩, ⟨-3125, 100000, [1, 0, 1, 1, 0]⟩, ⟨-3125, 100000, [1, 0, 1, 1, 1]⟩, ⟨-3125, 100000, [1, 1, 0, 0, 0]⟩, ⟨-3125, 100000, [1, 1, 0, 0, 1]⟩, ⟨-3125, 100000, [1, 1, 0, 1, 0]⟩, ⟨-3125, 100000, [1, 1, 0, 1, 1]⟩, ⟨3125, 100000, [1, 1, 1, 0, 0]⟩, ⟨3125, 100000, [1, 1, 1, 0, 1]⟩, ⟨3125, 100000, [1, 1, 1, 1, 0]⟩, ⟨3125, 100000, [1, 1, 1, 1, 1]⟩],
  [⟨3125, 100000, [0, 0, 0, 0, 0]⟩, ⟨3125, 100000, [0, 0, 0, 0, 1]⟩, ⟨3125, 100000, [0, 0, 0, 1, 0]⟩, ⟨3125, 100000, [0, 0, 0, 1, 1]⟩, ⟨-3125, 100000, [0, 0, 1, 0, 0]⟩, ⟨-3125, 100000, [0, 0, 1, 0, 1]⟩, ⟨-3125, 100000, [0, 0, 1, 1, 0]⟩, ⟨-3125, 100000, [0, 0, 1, 1, 1]⟩, ⟨3125, 100000, [0, 1, 0, 0, 0]⟩, ⟨3125, 100000, [0, 1, 0, 0, 1]⟩, ⟨3125, 100000, [0, 1, 0, 1, 0]⟩, ⟨3125, 100000, [0, 1, 0, 1, 1]⟩, ⟨-3125, 100000, [0, 1, 1, 0, 0]⟩, ⟨-3125, 100000, [0, 1, 1, 0, 1]⟩, ⟨-3125, 100000, [0, 1, 1, 1, 0]⟩, ⟨-3125, 100000, [0, 1, 1, 1, 1]⟩, ⟨-3125, 100000, [1, 0, 0, 0, 0]⟩, ⟨-3125, 100000, [1, 0, 0, 0, 1]⟩, ⟨-3125, 100000, [1, 0, 0, 1, 0]⟩, ⟨-3125, 100000, [1, 0, 0, 1, 1]⟩, ⟨3125, 100000, [1, 0, 1, 0, 0]⟩, ⟨3125, 100000, [1, 0, 1, 0, 1]⟩, ⟨3125, 100000, [1, 0, 1, 1, 0]⟩, ⟨3125, 100000, [1, 0, 1, 1, 1]⟩, ⟨-3125, 100000, [1, 1, 0, 0, 0]⟩, ⟨-3125, 100000, [1, 1, 0, 0, 1]⟩, ⟨-3125, 100000, [1, 1, 0, 1, 0]⟩, ⟨-3125, 100000, [1, 1, 0, 1, 1]⟩, ⟨3125, 100000, [1, 1, 1, 0, 0]⟩, ⟨3125, 100000, [1, 1, 1, 0, 1]⟩, ⟨3125, 100000, [1, 1, 1, 1, 0]⟩, ⟨3125, 100000, [1, 1, 1, 1, 1]⟩],
  [⟨3125, 100000, [0, 0, 0, 0, 0]⟩, ⟨3125, 100000, [0, 0, 0, 0, 1]⟩, ⟨3125, 100000, [0, 0, 0, 1, 0]⟩, ⟨3125, 100000, [0, 0, 0, 1, 1]⟩, ⟨-3125, 100000, [0, 0, 1, 0, 0]⟩, ⟨-3125, 100000, [0, 0, 1, 0, 1]⟩, ⟨-3125, 100000, [0, 0, 1, 1, 0]⟩, ⟨-3125, 100000, [0, 0, 1, 1, 1]⟩, ⟨3125, 100000, [0, 1, 0, 0, 0]⟩, ⟨3125, 100000, [0, 1, 0, 0, 1]⟩, ⟨3125, 100000, [0, 1, 0, 1, 0]⟩, ⟨3125, 100000, [0, 1, 0, 1, 1]⟩, ⟨-3125, 100000, [0, 1, 1, 0, 0]⟩, ⟨-3125, 100000, [0, 1, 1, 0, 1]⟩, ⟨-3125, 100000, [0, 1, 1, 1, 0]⟩, ⟨-3125, 100000, [0, 1, 1, 1, 1]⟩, ⟨3125, 100000, [1, 0, 0, 0, 0]⟩, ⟨3125, 100000, [1, 0, 0, 0, 1]⟩, ⟨3125, 100000, [1, 0, 0, 1, 0]⟩, ⟨3125, 100000, [1, 0, 0, 1, 1]⟩, ⟨-3125, 100000, [1, 0, 1, 0, 0]⟩, ⟨-3125, 100000, [1, 0, 1, 0, 1]⟩, ⟨-3125, 100000, [1, 0, 1, 1, 0]⟩, ⟨-3125, 100000, [1, 0, 1, 1, 1]⟩, ⟨3125, 100000, [1, 1, 0, 0, 0]⟩, ⟨3125, 100000, [1, 1, 0, 0, 1]⟩, ⟨3125, 100000, [1, 1, 0, 1, 0]⟩, ⟨3125, 100000, [1, 1, 0, 1, 1]⟩, ⟨-3125, 100000, [1, 1, 1, 0, 0]⟩, ⟨-3125, 100000, [1, 1, 1, 0, 1]⟩, ⟨-3125, 100000, [1, 1, 1, 1, 0]⟩, ⟨-3125, 100000, [1, 1, 1, 1, 1]⟩],
  [⟨3125, 100000, [0, 0, 0, 0, 0]⟩, ⟨3125, 100000, [0, 0, 0, 0, 1]⟩, ⟨3125, 100000, [0, 0, 0, 1, 0]⟩, ⟨3125, 100000, [0, 0, 0, 1, 1]⟩, ⟨3125, 100000, [0, 0, 1, 0, 0]⟩, ⟨3125, 100000, [0, 0, 1, 0, 1]⟩, ⟨3125, 100000, [0, 0, 1, 1, 0]⟩, ⟨3125, 100000, [0, 0, 1, 1, 1]⟩, ⟨-3125, 100000, [0, 1, 0, 0, 0]⟩, ⟨-3125, 100000, [0, 1, 0, 0, 1]⟩, ⟨-3125, 100000, [0, 1, 0, 1, 0]⟩, ⟨-3125, 100000, [0, 1, 0, 1, 1]⟩, ⟨-3125, 100000, [0, 1, 1, 0, 0]⟩, ⟨-3125, 100000, [0, 1, 1, 0, 1]⟩, ⟨-3125, 100000, [0, 1, 1, 1, 0]⟩, ⟨-3125, 100000, [0, 1, 1, 1, 1]⟩, ⟨-3125, 100000, [1, 0, 0, 0, 0]⟩, ⟨-3125, 100000, [1, 0, 0, 0, 1]⟩, ⟨-3125, 100000, [1, 0, 0, 1, 0]⟩, ⟨-3125, 100000, [1, 0, 0, 1, 1]⟩, ⟨-3125, 100000, [1, 0, 1, 0, 0]⟩, ⟨-3125, 100000, [1, 0, 1, 0, 1]⟩, ⟨-3125, 100000, [1, 0, 1, 1, 0]⟩, ⟨-3125, 100000, [1, 0, 1, 1, 1]⟩, ⟨3125, 100000, [1, 1, 0, 0, 0]⟩, ⟨3125, 100000, [1, 1, 0, 0, 1]⟩, ⟨3125, 100000, [1, 1, 0, 1, 0]⟩, ⟨3125, 100000, [1, 1, 0, 1, 1]⟩, ⟨3125, 100000, [1, 1, 1, 0, 0]⟩, ⟨3125, 100000, [1, 1, 1, 0, 1]⟩, ⟨3125, 100000, [1, 1, 1, 1, 0]⟩, ⟨3125, 100000, [1, 1, 1, 1, 1]⟩],
  [⟨3125, 100000, [0, 0, 0, 0, 0]⟩, ⟨3125, 100000, [0, 0, 0, 0, 1]⟩, ⟨3125, 100000, [0, 0, 0, 1, 0]⟩, ⟨3125, 100000, [0, 0, 0, 1, 1]⟩, ⟨3125, 100000, [0, 0, 1, 0, 0]⟩, ⟨3125, 100000, [0, 0, 1, 0, 1]⟩, ⟨3125, 100000, [0, 0, 1, 1, 0]⟩, ⟨3125, 100000, [0, 0, 1, 1, 1]⟩, ⟨-3125, 100000, [0, 1, 0, 0, 0]⟩, ⟨-3125, 100000, [0, 1, 0, 0, 1]⟩, ⟨-3125, 100000, [0, 1, 0, 1, 0]⟩, ⟨-3125, 100000, [0, 1, 0, 1, 1]⟩, ⟨-3125, 100000, [0, 1, 1, 0, 0]⟩, ⟨-3125, 100000, [0, 1, 1, 0, 1]⟩, ⟨-3125, 100000, [0, 1, 1, 1, 0]⟩, ⟨-3125, 100000, [0, 1, 1, 1, 1]⟩, ⟨3125, 100000, [1, 0, 0, 0, 0]⟩, ⟨3125, 100000, [1, 0, 0, 0, 1]⟩, ⟨3125, 100000, [1, 0, 0, 1, 0]⟩, ⟨3125, 100000, [1, 0, 0, 1, 1]⟩, ⟨3125, 100000, [1, 0, 1, 0, 0]⟩, ⟨3125, 100000, [1, 0, 1, 0, 1]⟩, ⟨3125, 100000, [1, 0, 1, 1, 0]⟩, ⟨3125, 100000, [1, 0, 1, 1, 1]⟩, ⟨-3125, 100000, [1, 1, 0, 0, 0]⟩, ⟨-3125, 100000, [1, 1, 0, 0, 1]⟩, ⟨-3125, 100000, [1, 1, 0, 1, 0]⟩, ⟨-3125, 100000, [1, 1, 0, 1, 1]⟩, ⟨-3125, 100000, [1, 1, 1, 0, 0]⟩, ⟨-3125, 100000, [1, 1, 1, 0, 1]⟩, ⟨-3125, 100000, [1, 1, 1, 1, 0]⟩, ⟨-3125, 100000, [1, 1, 1, 1, 1]⟩],
  [⟨3125, 100000, [0, 0, 0, 0, 0]⟩, ⟨3125, 100000, [0, 0, 0, 0, 1]⟩, ⟨3125, 100000, [0, 0, 0, 1, 0]⟩, ⟨3125, 100000, [0, 0, 0, 1, 1]⟩, ⟨3125, 100000, [0, 0, 1, 0, 0]⟩, ⟨3125, 100000, [0, 0, 1, 0, 1]⟩, ⟨3125, 100000, [0, 0, 1, 1, 0]⟩, ⟨3125, 100000, [0, 0, 1, 1, 1]⟩, ⟨3125, 100000, [0, 1, 0, 0, 0]⟩, ⟨3125, 100000, [0, 1, 0, 0, 1]⟩, ⟨3125, 100000, [0, 1, 0, 1, 0]⟩, ⟨3125, 100000, [0, 1, 0, 1, 1]⟩, ⟨3125, 100000, [0, 1, 1, 0, 0]⟩, ⟨3125, 100000, [0, 1, 1, 0, 1]⟩, ⟨3125, 100000, [0, 1, 1, 1, 0]⟩, ⟨3125, 100000, [0, 1, 1, 1, 1]⟩, ⟨-3125, 100000, [1, 0, 0, 0, 0]⟩, ⟨-3125, 100000, [1, 0, 0, 0, 1]⟩, ⟨-3125, 100000, [1, 0, 0, 1, 0]⟩, ⟨-3125, 100000, [1, 0, 0, 1, 1]⟩, ⟨-3125, 100000, [1, 0, 1, 0, 0]⟩, ⟨-3125, 100000, [1, 0, 1, 0, 1]⟩, ⟨-3125, 100000, [1, 0, 1, 1, 0]⟩, ⟨-3125, 100000, [1, 0, 1, 1, 1]⟩, ⟨-3125, 100000, [1, 1, 0, 0, 0]⟩, ⟨-3125, 100000, [1, 1, 0, 0, 1]⟩, ⟨-3125, 100000, [1, 1, 0, 1, 0]⟩, ⟨-3125, 100000, [1, 1, 0, 1, 1]⟩, ⟨-3125, 100000, [1, 1, 1, 0, 0]⟩, ⟨-3125, 100000, [1, 1, 1, 0, 1]⟩, ⟨-3125, 100000, [1, 1, 1, 1, 0]⟩, ⟨-3125, 100000, [1, 1, 1, 1, 1]⟩],
  [⟨3125, 100000, [0, 0, 0, 0, 0]⟩, ⟨3125, 100000, [0, 0, 0, 0, 1]⟩, ⟨3125, 100000, [0, 0, 0, 1, 0]⟩, ⟨3125, 100000, [0, 0, 0, 1, 1]⟩, ⟨3125, 100000, [0, 0, 1, 0, 0]⟩, ⟨3125, 100000, [0, 0, 1, 0, 1]⟩, ⟨3125, 100000, [0, 0, 1, 1, 0]⟩, ⟨3125, 100000, [0, 0, 1, 1, 1]⟩, ⟨3125, 100000, [0, 1, 0, 0, 0]⟩, ⟨3125, 100000, [0, 1, 0, 0, 1]⟩, ⟨3125, 100000, [0, 1, 0, 1, 0]⟩, ⟨3125, 100000, [0, 1, 0, 1, 1]⟩, ⟨3125, 100000, [0, 1, 1, 0, 0]⟩, ⟨3125, 100000, [0, 1, 1, 0, 1]⟩, ⟨3125, 100000, [0, 1, 1, 1, 0]⟩, ⟨3125, 100000, [0, 1, 1, 1, 1]⟩, ⟨3125, 100000, [1, 0, 0, 0, 0]⟩, ⟨3125, 100000, [1, 0, 0, 0, 1]⟩, ⟨3125, 100000, [1, 0, 0, 1, 0]⟩, ⟨3125, 100000, [1, 0, 0, 1, 1]⟩, ⟨3125, 100000, [1, 0, 1, 0, 0]⟩, ⟨3125, 100000, [1, 0, 1, 0, 1]⟩, ⟨3125, 100000, [1, 0, 1, 1, 0]⟩, ⟨3125, 100000, [1, 0, 1, 1, 1]⟩, ⟨3125, 100000, [1, 1, 0, 0, 0]⟩, ⟨3125, 100000, [1, 1, 0, 0, 1]⟩, ⟨3125, 100000, [1, 1, 0, 1, 0]⟩, ⟨3125, 100000, [1, 1, 0, 1, 1]⟩, ⟨3125, 100000, [1, 1, 1, 0, 0]⟩, ⟨3125, 100000, [1, 1, 1, 0, 1]⟩, ⟨3125, 100000, [1, 1, 1, 1, 0]⟩, ⟨3125, 100000, [1, 1, 1, 1, 1]⟩]]

/-- computeInterpolationMatrices.py:8788-8788. -/
def modalSer6p0 : List Poly := [
  [⟨125, 1000, [0, 0, 0, 0, 0, 0]⟩]]

/-- computeInterpolationMatrices.py:8837-8904. -/
def modalSer6p1 : List Poly := [
  [⟨125, 1000, [0, 0, 0, 0, 0, 0]⟩],
  [⟨2165063509461096, 10000000000000000, [1, 0, 0, 0, 0, 0]⟩],
  [⟨2165063509461096, 10000000000000000, [0, 1, 0, 0, 0, 0]⟩],
  [⟨2165063509461096, 10000000000000000, [0, 0, 1, 0, 0, 0]⟩],
  [⟨2165063509461096, 10000000000000000, [0, 0, 0, 1, 0, 0]⟩],
  [⟨2165063509461096, 10000000000000000, [0, 0, 0, 0, 1, 0]⟩],
  [⟨2165063509461096, 10000000000000000, [0, 0, 0, 0, 0, 1]⟩],
  [⟨375, 1000, [1, 1, 0, 0, 0, 0]⟩],
  [⟨375, 1000, [1, 0, 1, 0, 0, 0]⟩],
  [⟨375, 1000, [0, 1, 1, 0, 0, 0]⟩],
  [⟨375, 1000, [1, 0, 0, 1, 0, 0]⟩],
  [⟨375, 1000, [0, 1, 0, 1, 0, 0]⟩],
  [⟨375, 1000, [0, 0, 1, 1, 0, 0]⟩],
  [⟨375, 1000, [1, 0, 0, 0, 1, 0]⟩],
  [⟨375, 1000, [0, 1, 0, 0, 1, 0]⟩],
  [⟨375, 1000, [0, 0, 1, 0, 1, 0]⟩],
  [⟨375, 1000, [0, 0, 0, 1, 1, 0]⟩],
  [⟨375, 1000, [1, 0, 0, 0, 0, 1]⟩],
  [⟨375, 1000, [0, 1, 0, 0, 0, 1]⟩],
  [⟨375, 1000, [0, 0, 1, 0, 0, 1]⟩],
  [⟨375, 1000, [0, 0, 0, 1, 0, 1]⟩],
  [⟨375, 1000, [0, 0, 0, 0, 1, 1]⟩],
  [⟨6495190528383289, 10000000000000000, [1, 1, 1, 0, 0, 0]⟩],
  [⟨6495190528383289, 10000000000000000, [1, 1, 0, 1, 0, 0]⟩],
  [⟨6495190528383289, 10000000000000000, [1, 0, 1, 1, 0, 0]⟩],
  [⟨6495190528383289, 10000000000000000, [0, 1, 1, 1, 0, 0]⟩],
  [⟨6495190528383289, 10000000000000000, [1, 1, 0, 0, 1, 0]⟩],
  [⟨6495190528383289, 10000000000000000, [1, 0, 1, 0, 1, 0]⟩],
  [⟨6495190528383289, 10000000000000000, [0, 1, 1, 0, 1, 0]⟩],
  [⟨6495190528383289, 10000000000000000, [1, 0, 0, 1, 1, 0]⟩],
  [⟨6495190528383289, 10000000000000000, [0, 1, 0, 1, 1, 0]⟩],
  [⟨6495190528383289, 10000000000000000, [0, 0, 1, 1, 1, 0]⟩],
  [⟨6495190528383289, 10000000000000000, [1, 1, 0, 0, 0, 1]⟩],
  [⟨6495190528383289, 10000000000000000, [1, 0, 1, 0, 0, 1]⟩],
  [⟨6495190528383289, 10000000000000000, [0, 1, 1, 0, 0, 1]⟩],
  [⟨6495190528383289, 10000000000000000, [1, 0, 0, 1, 0, 1]⟩],
  [⟨6495190528383289, 10000000000000000, [0, 1, 0, 1, 0, 1]⟩],
  [⟨6495190528383289, 10000000000000000, [0, 0, 1, 1, 0, 1]⟩],
  [⟨6495190528383289, 10000000000000000, [1, 0, 0, 0, 1, 1]⟩],
  [⟨6495190528383289, 10000000000000000, [0, 1, 0, 0, 1, 1]⟩],
  [⟨6495190528383289, 10000000000000000, [0, 0, 1, 0, 1, 1]⟩],
  [⟨6495190528383289, 10000000000000000, [0, 0, 0, 1, 1, 1]⟩],
  [⟨1125, 1000, [1, 1, 1, 1, 0, 0]⟩],
  [⟨1125, 1000, [1, 1, 1, 0, 1, 0]⟩],
  [⟨1125, 1000, [1, 1, 0, 1, 1, 0]⟩],
  [⟨1125, 1000, [1, 0, 1, 1, 1, 0]⟩],
  [⟨1125, 1000, [0, 1, 1, 1, 1, 0]⟩],
  [⟨1125, 1000, [1, 1, 1, 0, 0, 1]⟩],
  [⟨1125, 1000, [1, 1, 0, 1, 0, 1]⟩],
  [⟨1125, 1000, [1, 0, 1, 1, 0, 1]⟩],
  [⟨1125, 1000, [0, 1, 1, 1, 0, 1]⟩],
  [⟨1125, 1000, [1, 1, 0, 0, 1, 1]⟩],
  [⟨1125, 1000, [1, 0, 1, 0, 1, 1]⟩],
  [⟨1125, 1000, [0, 1, 1, 0, 1, 1]⟩],
  [⟨1125, 1000, [1, 0, 0, 1, 1, 1]⟩],
  [⟨1125, 1000, [0, 1, 0, 1, 1, 1]⟩],
  [⟨1125, 1000, [0, 0, 1, 1, 1, 1]⟩],
  [⟨1948557158514986, 1000000000000000, [1, 1, 1, 1, 1, 0]⟩],
  [⟨1948557158514986, 1000000000000000, [1, 1, 1, 1, 0, 1]⟩],
  [⟨1948557158514986, 1000000000000000, [1, 1, 1, 0, 1, 1]⟩],
  [⟨1948557158514986, 1000000000000000, [1, 1, 0, 1, 1, 1]⟩],
  [⟨1948557158514986, 1000000000000000, [1, 0, 1, 1, 1, 1]⟩],
  [⟨1948557158514986, 1000000000000000, [0, 1, 1, 1, 1, 1]⟩],
  [⟨3375, 1000, [1, 1, 1, 1, 1, 1]⟩]]

/-- computeInterpolationMatrices.py: all the branches, by dimension, kind of basis and order. -/
def all : List (Key × List Poly) := [
  (⟨1, .modal1, 0⟩, modal1p0),
  (⟨1, .modal1, 1⟩, modal1p1),
  (⟨1, .modal1, 2⟩, modal1p2),
  (⟨1, .modal1, 3⟩, modal1p3),
  (⟨1, .modal1, 4⟩, modal1p4),
  (⟨1, .nodal1, 1⟩, nodal1p1),
  (⟨1, .nodal1, 2⟩, nodal1p2),
  (⟨1, .nodal1, 3⟩, nodal1p3),
  (⟨1, .nodal1, 4⟩, nodal1p4),
  (⟨2, .modal "maximal-order", 1⟩, modalMax2p1),
  (⟨2, .modal "maximal-order", 2⟩, modalMax2p2),
  (⟨2, .modal "maximal-order", 3⟩, modalMax2p3),
  (⟨2, .modal "maximal-order", 4⟩, modalMax2p4),
  (⟨2, .modal "serendipity", 0⟩, modalSer2p0),
  (⟨2, .modal "serendipity", 1⟩, modalSer2p1),
  (⟨2, .modal "serendipity", 2⟩, modalSer2p2),
  (⟨2, .modal "serendipity", 3⟩, modalSer2p3),
  (⟨2, .modal "serendipity", 4⟩, modalSer2p4),
  (⟨2, .modal "tensor", 1⟩, modalTen2p1),
  (⟨2, .modal "tensor", 2⟩, modalTen2p2),
  (⟨2, .modal "tensor", 3⟩, modalTen2p3),
  (⟨2, .nodal "serendipity", 1⟩, nodalSer2p1),
  (⟨2, .nodal "serendipity", 2⟩, nodalSer2p2),
  (⟨2, .modal "gkhybrid", 1⟩, modalGkh2p1),
  (⟨2, .modal "hybrid", 1⟩, modalHyb2p1),
  (⟨3, .modal "maximal-order", 1⟩, modalMax3p1),
  (⟨3, .modal "maximal-order", 2⟩, modalMax3p2),
  (⟨3, .modal "maximal-order", 3⟩, modalMax3p3),
  (⟨3, .modal "maximal-order", 4⟩, modalMax3p4),
  (⟨3, .modal "serendipity", 0⟩, modalSer3p0),
  (⟨3, .modal "serendipity", 1⟩, modalSer3p1),
  (⟨3, .modal "serendipity", 2⟩, modalSer3p2),
  (⟨3, .modal "serendipity", 3⟩, modalSer3p3),
  (⟨3, .modal "serendipity", 4⟩, modalSer3p4),
  (⟨3, .modal "tensor", 1⟩, modalTen3p1),
  (⟨3, .modal "tensor", 2⟩, modalTen3p2),
  (⟨3, .modal "tensor", 3⟩, modalTen3p3),
  (⟨3, .modal "gkhybrid", 1⟩, modalGkh3p1),
  (⟨3, .modal "hybrid", 1⟩, modalHyb3p1),
  (⟨3, .nodal "serendipity", 1⟩, nodalSer3p1),
  (⟨3, .nodal "serendipity", 2⟩, nodalSer3p2),
  (⟨4, .modal "maximal-order", 1⟩, modalMax4p1),
  (⟨4, .modal "maximal-order", 2⟩, modalMax4p2),
  (⟨4, .modal "maximal-order", 3⟩, modalMax4p3),
  (⟨4, .modal "maximal-order", 4⟩, modalMax4p4),
  (⟨4, .modal "serendipity", 0⟩, modalSer4p0),
  (⟨4, .modal "serendipity", 1⟩, modalSer4p1),
  (⟨4, .modal "serendipity", 2⟩, modalSer4p2),
  (⟨4, .modal "serendipity", 3⟩, modalSer4p3),
  (⟨4, .modal "serendipity", 4⟩, modalSer4p4),
  (⟨4, .modal "tensor", 1⟩, modalTen4p1),
  (⟨4, .modal "tensor", 2⟩, modalTen4p2),
  (⟨4, .modal "gkhybrid", 1⟩, modalGkh4p1),
  (⟨4, .modal "hybrid", 1⟩, modalHyb4p1),
  (⟨4, .nodal "serendipity", 1⟩, nodalSer4p1),
  (⟨4, .nodal "serendipity", 2⟩, nodalSer4p2),
  (⟨5, .modal "maximal-order", 1⟩, modalMax5p1),
  (⟨5, .modal "maximal-order", 2⟩, modalMax5p2),
  (⟨5, .modal "maximal-order", 3⟩, modalMax5p3),
  (⟨5, .modal "maximal-order", 4⟩, modalMax5p4),
  (⟨5, .modal "serendipity", 0⟩, modalSer5p0),
  (⟨5, .modal "serendipity", 1⟩, modalSer5p1),
  (⟨5, .modal "serendipity", 2⟩, modalSer5p2),
  (⟨5, .modal "serendipity", 3⟩, modalSer5p3),
  (⟨5, .modal "serendipity", 4⟩, modalSer5p4),
  (⟨5, .modal "gkhybrid", 1⟩, modalGkh5p1),
  (⟨5, .nodal "serendipity", 1⟩, nodalSer5p1),
  (⟨6, .modal "serendipity", 0⟩, modalSer6p0),
  (⟨6, .modal "serendipity", 1⟩, modalSer6p1)]

end Pgkyl.Dg.InterpTables
