/-!
# Model of `src/falcon_constants.go`
-/

namespace Falcon

/-- falcon_constants.go:4 `HeadLen`. -/
def HeadLen : Nat := 1

/-- falcon_constants.go:5 `SaltLen`. -/
def SaltLen : Nat := 40

/-- falcon_constants.go:21-32 the map `LOGN`; `none` is a missing key. -/
def LOGN (n : UInt16) : Option UInt8 :=
  if n = 2 then some 1 else if n = 4 then some 2 else if n = 8 then some 3 else if n = 16 then some 4
  else if n = 32 then some 5 else if n = 64 then some 6 else if n = 128 then some 7 else if n = 256 then some 8
  else if n = 512 then some 9 else if n = 1024 then some 10 else none

/-- falcon_constants.go:41-47 `PublicParameters`. The two `float64` fields are kept as the decimal numbers written in the source. -/
structure PublicParameters where
  n : UInt16
  sigma : Rat
  sigmin : Rat
  sigbound : UInt32
  sigbytelen : UInt16
  deriving DecidableEq

/-- falcon_constants.go:49-130 the map `ParamSets`; `none` is a missing key. -/
def ParamSets (n : UInt16) : Option PublicParameters :=
  if n = 2 then some ⟨2, 144.81253976308423, 1.1165085072329104, 101498, 44⟩
  else if n = 4 then some ⟨4, 146.83798833523608, 1.1321247692325274, 208714, 47⟩
  else if n = 8 then some ⟨8, 148.83587593064718, 1.147528535373367, 428865, 52⟩
  else if n = 16 then some ⟨16, 151.78340713845503, 1.170254078853483, 892039, 63⟩
  else if n = 32 then some ⟨32, 154.6747794602761, 1.1925466358390344, 1852696, 82⟩
  else if n = 64 then some ⟨64, 157.51308555044122, 1.2144300507766141, 3842630, 122⟩
  else if n = 128 then some ⟨128, 160.30114421975344, 1.235926056771981, 7959734, 200⟩
  else if n = 256 then some ⟨256, 163.04153322607107, 1.2570545284063217, 16468416, 356⟩
  else if n = 512 then some ⟨512, 165.7366171829776, 1.2778336969128337, 34034726, 666⟩
  else if n = 1024 then some ⟨1024, 168.38857144654395, 1.298280334344292, 70265242, 1280⟩
  else none

/-- falcon.go:23-26 `isValidDegree`. -/
def isValidDegree (n : UInt16) : Bool := (ParamSets n).isSome

/-- falcon.go:28-33 `GetParamSet`: the zero struct for a missing key. -/
def GetParamSet (n : UInt16) : PublicParameters :=
  if isValidDegree n then (ParamSets n).getD ⟨0, 0, 0, 0, 0⟩ else ⟨0, 0, 0, 0, 0⟩

end Falcon
