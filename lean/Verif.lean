import Verif.Acc.Base
import Verif.Acc.Configs
import Verif.Acc.Scalar
import Verif.Acc.Sigs
import Verif.Acc.Src
import Verif.Acc.Struct
import Verif.Access
import Verif.Apple
import Verif.Assoc
import Verif.Attr
import Verif.Base
import Verif.CMem
import Verif.CMemDiff
import Verif.CMemEntry
import Verif.CMemI
import Verif.CMemIEntry
import Verif.CMemILate
import Verif.CMemIOver
import Verif.CMemIRun
import Verif.CMemISafe
import Verif.CMemLate
import Verif.CMemOver
import Verif.CMemPart
import Verif.CMemSafe
import Verif.CMemSim
import Verif.CMemSpec
import Verif.CMemTypes
import Verif.CMemWrite
import Verif.CMemX
import Verif.Contract
import Verif.Defd
import Verif.DefdAttr
import Verif.DefdBad
import Verif.DefdTac
import Verif.F32
import Verif.F32Apx
import Verif.F32Btw
import Verif.F32Drift
import Verif.F32Err
import Verif.F32Grid
import Verif.F32Lemmas
import Verif.F32Map
import Verif.F32Mir
import Verif.F32Mono
import Verif.F32Norm
import Verif.F32Order
import Verif.F32Simd
import Verif.Gen
import Verif.GenCall
import Verif.GenInt
import Verif.GenStruct
import Verif.Hand
import Verif.HandWrap
import Verif.I32
import Verif.I32Lemmas
import Verif.Io
import Verif.IoWrap
import Verif.Layout
import Verif.LayoutLemmas
import Verif.Lemmas
import Verif.Lib
import Verif.Lib.Affine
import Verif.Lib.Clip
import Verif.Lib.Geom
import Verif.Lib.Int
import Verif.Lib.Mat
import Verif.Lib.Quat
import Verif.Lib.Vec
import Verif.MatTac
import Verif.Mem.Affines
import Verif.Mem.AffinesRun
import Verif.Mem.Geoms
import Verif.Mem.GeomsRun
import Verif.Mem.Hand
import Verif.Mem.Ints
import Verif.Mem.IntsRun
import Verif.Mem.Mats
import Verif.Mem.MatsRun
import Verif.Mem.Noises
import Verif.Mem.NoisesRun
import Verif.Mem.Quats
import Verif.Mem.QuatsRun
import Verif.Mem.RayNull
import Verif.Mem.Vecs
import Verif.Mem.VecsRun
import Verif.Modes
import Verif.PiBounds
import Verif.Printf
import Verif.Props.C01
import Verif.Props.C02
import Verif.Props.C03
import Verif.Props.C04
import Verif.Props.C05
import Verif.Props.C06
import Verif.Props.C07
import Verif.Props.C08
import Verif.Props.C09
import Verif.Props.C10
import Verif.Props.C11
import Verif.Props.C12
import Verif.Props.C13
import Verif.Props.C14
import Verif.Props.C15
import Verif.Props.C16
import Verif.Props.C17
import Verif.Props.C18
import Verif.Props.C19
import Verif.Props.C20
import Verif.Props.C21
import Verif.Props.C22
import Verif.Props.C23
import Verif.Props.C24
import Verif.Props.C25
import Verif.Props.C26
import Verif.Props.C27
import Verif.Props.C28
import Verif.Props.C29
import Verif.Props.C30
import Verif.Props.C31
import Verif.Props.C31Frame
import Verif.Props.C32
import Verif.Props.C33
import Verif.Props.C34
import Verif.Props.C35
import Verif.Props.C36
import Verif.Props.C37
import Verif.Props.C38
import Verif.Props.C39
import Verif.Props.C40
import Verif.Props.C41
import Verif.Props.C42
import Verif.Props.C43
import Verif.Props.C44
import Verif.Props.C45
import Verif.Props.C46
import Verif.Props.C46Halves
import Verif.Props.C47
import Verif.Props.C48
import Verif.Props.C49
import Verif.Props.C50
import Verif.Props.C51
import Verif.Props.C52
import Verif.Props.C53
import Verif.Props.C54
import Verif.Props.C55Affines
import Verif.Props.C55Geoms
import Verif.Props.C55Ints
import Verif.Props.C55Mats
import Verif.Props.C55Quats
import Verif.Props.C55Refuted
import Verif.Props.C55Vecs
import Verif.Props.C56Affines
import Verif.Props.C56AnyAffine
import Verif.Props.C56AnyClip
import Verif.Props.C56AnyGeom
import Verif.Props.C56AnyHand
import Verif.Props.C56AnyMat
import Verif.Props.C56AnyQuat
import Verif.Props.C56AnyVec
import Verif.Props.C56Geoms
import Verif.Props.C56Hand
import Verif.Props.C56IAny
import Verif.Props.C56Ints
import Verif.Props.C56Loops
import Verif.Props.C56Mats
import Verif.Props.C56Noises
import Verif.Props.C56Null
import Verif.Props.C56Quats
import Verif.Props.C56Swizzle
import Verif.Props.C56Vecs
import Verif.Props.C57Sse
import Verif.Props.C57Sse2
import Verif.Props.C57Sse2X
import Verif.Props.C57Sse3
import Verif.Props.C57Sse3X
import Verif.Props.C57Sse4
import Verif.Props.C57Sse4X
import Verif.Props.C57SseX
import Verif.Props.C58Avx
import Verif.Props.C58AvxX
import Verif.Props.C58Fma
import Verif.Props.C58FmaX
import Verif.Props.C59Neon32
import Verif.Props.C59Neon32X
import Verif.Props.C59Neon64
import Verif.Props.C59Neon64X
import Verif.Props.C60Wasm
import Verif.Props.C60WasmX
import Verif.Props.C61
import Verif.Props.C61Hand
import Verif.Props.C62
import Verif.Props.C63
import Verif.Props.C64
import Verif.Props.C64Fin
import Verif.Props.C64Mat
import Verif.Props.C64Norm
import Verif.Props.C65
import Verif.Props.C65Mat
import Verif.Props.C65Vec
import Verif.Props.C66
import Verif.Props.C67
import Verif.Props.C68
import Verif.Props.C69
import Verif.Props.C70
import Verif.Props.C71
import Verif.Props.C71Bound
import Verif.Props.C71Cont
import Verif.Props.C72Affines
import Verif.Props.C72Chain
import Verif.Props.C72Geoms
import Verif.Props.C72Iff
import Verif.Props.C72IffOrtho
import Verif.Props.C72IffPersp
import Verif.Props.C72Mats
import Verif.Props.C72Noises
import Verif.Props.C72Quats
import Verif.Props.C72Vecs
import Verif.Props.C73
import Verif.Props.C73Corners
import Verif.Props.C73Ortho
import Verif.Props.C74
import Verif.Props.C74Box
import Verif.Props.C74Flat
import Verif.Props.C74Lens
import Verif.Props.C74Quat
import Verif.Props.C75
import Verif.Props.C75Mat
import Verif.Props.C75Wrap
import Verif.Props.C76
import Verif.Props.C76Agree
import Verif.Props.C76Avx
import Verif.Props.C76Chain
import Verif.Props.C76Fma
import Verif.Props.C76Mat
import Verif.Props.C76Neon32
import Verif.Props.C76Neon64
import Verif.Props.C76Sse
import Verif.Props.C76Sse2
import Verif.Props.C76Sse3
import Verif.Props.C76Sse4
import Verif.Props.C76Wasm
import Verif.Props.C77
import Verif.Props.C77Box
import Verif.Props.C77Ease
import Verif.Props.C77Follow
import Verif.Props.C77Range
import Verif.Props.C77Vec
import Verif.Props.C78
import Verif.Props.C78Gen
import Verif.Props.C79
import Verif.Props.C79Grid
import Verif.Props.C79Mat
import Verif.Props.C79More
import Verif.Props.C79Same
import Verif.Props.C80
import Verif.Props.C80More
import Verif.Props.C81
import Verif.Props.C81More
import Verif.Props.C82
import Verif.Props.C83
import Verif.Props.C83Mat
import Verif.Props.C83Sum
import Verif.Props.C84
import Verif.Props.C84Quat
import Verif.Props.C85
import Verif.Props.C86
import Verif.Props.C87
import Verif.Props.C88
import Verif.Props.C89
import Verif.Props.C90
import Verif.Props.C91
import Verif.Props.C92
import Verif.Props.C93
import Verif.Props.C94
import Verif.Props.C95
import Verif.Props.C95Exact
import Verif.Props.C95Methods
import Verif.Props.C96
import Verif.Props.C96Exact
import Verif.Props.C96Orders
import Verif.Props.C97
import Verif.Props.C97Enc
import Verif.Props.C97Env
import Verif.Props.C97Exact
import Verif.Props.C98Affine
import Verif.Props.C98CellsAffine
import Verif.Props.C98CellsClip
import Verif.Props.C98CellsGeom
import Verif.Props.C98CellsMat
import Verif.Props.C98CellsQuat
import Verif.Props.C98CellsVec
import Verif.Props.C98Clip
import Verif.Props.C98Columns
import Verif.Props.C98ExactAffine
import Verif.Props.C98ExactClip
import Verif.Props.C98ExactGeom
import Verif.Props.C98ExactMat
import Verif.Props.C98ExactQuat
import Verif.Props.C98ExactVec
import Verif.Props.C98Geom
import Verif.Props.C98Ints
import Verif.Props.C98Mat
import Verif.Props.C98Quat
import Verif.Props.C98Refuted
import Verif.Props.C98Vec
import Verif.Props.C99Affine
import Verif.Props.C99Clip
import Verif.Props.C99Geom
import Verif.Props.C99Mat
import Verif.Props.C99Quat
import Verif.Props.C99Vec
import Verif.Reading
import Verif.Real
import Verif.RotLemmas
import Verif.Simd
import Verif.SimdAttr
import Verif.SimdReal
import Verif.SimdTac
import Verif.SimdX
import Verif.Spec
import Verif.Thread
import Verif.ThreadCall
import Verif.ThreadInt
import Verif.Types
import Verif.ViewVolume
import Verif.Wide
