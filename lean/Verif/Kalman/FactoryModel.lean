import Verif.Kalman.Model
/-!
# The functions of the filters that make matrices and vectors of their sizes

A random matrix is given by its entries `w` (any numbers).
-/

namespace StateObs

/-- `Matrix::Constant(r, c, x)`. -/
def DMat.const (r c : Nat) (x : ℝ) : DMat := ⟨r, c, fun _ _ => x⟩
/-- `Matrix::Random(r, c)`. -/
def DMat.random (r c : Nat) (w : Nat → Nat → ℝ) : DMat := ⟨r, c, fun i j => w i j⟩
/-- `Matrix::Identity(r, c)`. -/
def DMat.ident (r c : Nat) : DMat := ⟨r, c, fun i j => if i.val = j.val then 1 else 0⟩
/-- `Vector::Constant(r, 1, x)`. -/
def DVec.const (r : Nat) (x : ℝ) : DVec := ⟨r, fun _ => x⟩
/-- `Vector::Random(r, 1)`. -/
def DVec.random (r : Nat) (w : Nat → ℝ) : DVec := ⟨r, fun i => w i⟩

namespace KF
variable {E : Type}

/-- `getAmatrixConstant`, kalman-filter-base.cpp 185-188. -/
def getAmatrixConstant (s : KFilter E) (c : ℝ) : DMat := .const s.st.nt s.st.nt c
/-- `getAmatrixRandom`, kalman-filter-base.cpp 190-193. -/
def getAmatrixRandom (s : KFilter E) (w : Nat → Nat → ℝ) : DMat := .random s.st.nt s.st.nt w
/-- `getAmatrixZero`, kalman-filter-base.cpp 195-198. -/
def getAmatrixZero (s : KFilter E) : DMat := .zero s.st.nt s.st.nt
/-- `getAmatrixIdentity`, kalman-filter-base.cpp 200-203. -/
def getAmatrixIdentity (s : KFilter E) : DMat := .ident s.st.nt s.st.nt
/-- `getCmatrixConstant`, kalman-filter-base.cpp 210-213. -/
def getCmatrixConstant (s : KFilter E) (c : ℝ) : DMat := .const s.st.mt s.st.nt c
/-- `getCmatrixRandom`, kalman-filter-base.cpp 215-218. -/
def getCmatrixRandom (s : KFilter E) (w : Nat → Nat → ℝ) : DMat := .random s.st.mt s.st.nt w
/-- `getCmatrixZero`, kalman-filter-base.cpp 220-223. -/
def getCmatrixZero (s : KFilter E) : DMat := .zero s.st.mt s.st.nt
/-- `getQmatrixConstant`, kalman-filter-base.cpp 230-233. -/
def getQmatrixConstant (s : KFilter E) (c : ℝ) : DMat := .const s.st.nt s.st.nt c
/-- `getQmatrixRandom`, kalman-filter-base.cpp 235-238. -/
def getQmatrixRandom (s : KFilter E) (w : Nat → Nat → ℝ) : DMat := .random s.st.nt s.st.nt w
/-- `getQmatrixZero`, kalman-filter-base.cpp 240-243. -/
def getQmatrixZero (s : KFilter E) : DMat := .zero s.st.nt s.st.nt
/-- `getQmatrixIdentity`, kalman-filter-base.cpp 245-248. -/
def getQmatrixIdentity (s : KFilter E) : DMat := .ident s.st.nt s.st.nt
/-- `getRmatrixConstant`, kalman-filter-base.cpp 255-258. -/
def getRmatrixConstant (s : KFilter E) (c : ℝ) : DMat := .const s.st.mt s.st.mt c
/-- `getRmatrixRandom`, kalman-filter-base.cpp 260-263. -/
def getRmatrixRandom (s : KFilter E) (w : Nat → Nat → ℝ) : DMat := .random s.st.mt s.st.mt w
/-- `getRmatrixZero`, kalman-filter-base.cpp 265-268. -/
def getRmatrixZero (s : KFilter E) : DMat := .zero s.st.mt s.st.mt
/-- `getRmatrixIdentity`, kalman-filter-base.cpp 270-273. -/
def getRmatrixIdentity (s : KFilter E) : DMat := .ident s.st.mt s.st.mt
/-- `getPmatrixConstant`, kalman-filter-base.cpp 280-283. -/
def getPmatrixConstant (s : KFilter E) (c : ℝ) : DMat := .const s.st.nt s.st.nt c
/-- `getPmatrixRandom`, kalman-filter-base.cpp 285-288. -/
def getPmatrixRandom (s : KFilter E) (w : Nat → Nat → ℝ) : DMat := .random s.st.nt s.st.nt w
/-- `getPmatrixZero`, kalman-filter-base.cpp 290-293. -/
def getPmatrixZero (s : KFilter E) : DMat := .zero s.st.nt s.st.nt
/-- `getPmatrixIdentity`, kalman-filter-base.cpp 295-298. -/
def getPmatrixIdentity (s : KFilter E) : DMat := .ident s.st.nt s.st.nt
/-- `stateTangentVectorConstant`, kalman-filter-base.cpp 305-308. -/
def stateTangentVectorConstant (s : KFilter E) (c : ℝ) : DVec := .const s.st.nt c
/-- `stateTangentVectorRandom`, kalman-filter-base.cpp 310-313. -/
def stateTangentVectorRandom (s : KFilter E) (w : Nat → ℝ) : DVec := .random s.st.nt w
/-- `stateTangentVectorZero`, kalman-filter-base.cpp 315-318. -/
def stateTangentVectorZero (s : KFilter E) : DVec := .zero s.st.nt
/-- `checkStateTangentVector`, kalman-filter-base.cpp 320-323. -/
def checkStateTangentVector (s : KFilter E) (v : DVec) : Bool := v.hasSize s.st.nt
/-- `measureTangentVectorConstant`, kalman-filter-base.cpp 325-328. -/
def measureTangentVectorConstant (s : KFilter E) (c : ℝ) : DVec := .const s.st.mt c
/-- `measureTangentVectorRandom`, kalman-filter-base.cpp 330-333. -/
def measureTangentVectorRandom (s : KFilter E) (w : Nat → ℝ) : DVec := .random s.st.mt w
/-- `measureTangentVectorZero`, kalman-filter-base.cpp 335-338. -/
def measureTangentVectorZero (s : KFilter E) : DVec := .zero s.st.mt
/-- `checkMeasureTangentVector`, kalman-filter-base.cpp 340-343. -/
def checkMeasureTangentVector (s : KFilter E) (v : DVec) : Bool := v.hasSize s.st.mt
/-- `stateVectorConstant`, observer-base.cpp 13-16. -/
def stateVectorConstant (s : KFilter E) (c : ℝ) : DVec := .const s.st.n c
/-- `stateVectorRandom`, observer-base.cpp 18-21. -/
def stateVectorRandom (s : KFilter E) (w : Nat → ℝ) : DVec := .random s.st.n w
/-- `stateVectorZero`, observer-base.cpp 23-26. -/
def stateVectorZero (s : KFilter E) : DVec := .zero s.st.n
/-- `measureVectorConstant`, observer-base.cpp 33-36. -/
def measureVectorConstant (s : KFilter E) (c : ℝ) : DVec := .const s.st.m c
/-- `measureVectorRandom`, observer-base.cpp 38-41. -/
def measureVectorRandom (s : KFilter E) (w : Nat → ℝ) : DVec := .random s.st.m w
/-- `measureVectorZero`, observer-base.cpp 43-46. -/
def measureVectorZero (s : KFilter E) : DVec := .zero s.st.m
/-- `inputVectorConstant`, observer-base.cpp 53-56. -/
def inputVectorConstant (s : KFilter E) (c : ℝ) : DVec := .const s.st.p c
/-- `inputVectorRandom`, observer-base.cpp 58-61. -/
def inputVectorRandom (s : KFilter E) (w : Nat → ℝ) : DVec := .random s.st.p w
/-- `inputVectorZero`, observer-base.cpp 63-66. -/
def inputVectorZero (s : KFilter E) : DVec := .zero s.st.p

end KF

namespace LKF
open KF

/-- `getBmatrixConstant`, linear-kalman-filter.cpp 73-76. -/
def getBmatrixConstant (s : KFilter Ext) (c : ℝ) : DMat := .const s.st.n s.st.p c
/-- `getBmatrixRandom`, linear-kalman-filter.cpp 78-81. -/
def getBmatrixRandom (s : KFilter Ext) (w : Nat → Nat → ℝ) : DMat := .random s.st.n s.st.p w
/-- `getBmatrixZero`, linear-kalman-filter.cpp 83-86. -/
def getBmatrixZero (s : KFilter Ext) : DMat := .zero s.st.n s.st.p
/-- `getDmatrixConstant`, linear-kalman-filter.cpp 93-96. -/
def getDmatrixConstant (s : KFilter Ext) (c : ℝ) : DMat := .const s.st.m s.st.p c
/-- `getDmatrixRandom`, linear-kalman-filter.cpp 98-101. -/
def getDmatrixRandom (s : KFilter Ext) (w : Nat → Nat → ℝ) : DMat := .random s.st.m s.st.p w
/-- `getDmatrixZero`, linear-kalman-filter.cpp 103-106. -/
def getDmatrixZero (s : KFilter Ext) : DMat := .zero s.st.m s.st.p

end LKF
end StateObs
