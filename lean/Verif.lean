import Verif.Arith
import Verif.Quat
import Verif.Mem
import Verif.Simd
import Verif.Spec
import Verif.QuatLemmas
import Verif.PropsScalar
import Verif.Hblas1
import Verif.Hblas1Proofs
import Verif.PropsHblas1
import Verif.Hblas1m
import Verif.Gemm
import Verif.GemmPack
import Verif.GemmKern
import Verif.GemmProofs
import Verif.GemmProofs2
import Verif.GemmTop
import Verif.PropsGemm
import Verif.Fortran
import Verif.FortranLemmas
import Verif.FHblas1
import Verif.FUtil
import Verif.FGer
import Verif.FGemmdd
import Verif.FGemmdz
import Verif.FGemmdh
import Verif.FGemmzd
import Verif.FGemmzz
import Verif.FGemmzh
import Verif.FGemmhd
import Verif.FGemmhz
import Verif.FGemmhh
import Verif.FGemvdd
import Verif.FGemvdz
import Verif.FGemvdh
import Verif.FGemvzd
import Verif.FGemvzz
import Verif.FGemvzh
import Verif.FGemvhd
import Verif.FGemvhz
import Verif.FGemvhh
import Verif.FGemmLemmas
import Verif.FGemmPfdd
import Verif.FGemmPfdz
import Verif.FGemmPfdh
import Verif.FGemmPfzd
import Verif.FGemmPfzz
import Verif.FGemmPfzh
import Verif.FGemmPfhd
import Verif.FGemmPfhz
import Verif.FGemmPfhh
import Verif.PropsGemmF
import Verif.Util
import Verif.UtilProofs
import Verif.SpecUtil
import Verif.PropsUtil
import Verif.PropsUtil2
import Verif.Generic1
import Verif.Generic1Proofs
import Verif.FHblas1Proofs
import Verif.FHblas1Proofs2
import Verif.PropsHblas1G
import Verif.FGerLemmas
import Verif.FGerPf
import Verif.PropsGer
import Verif.FGemvLemmas
import Verif.FGemvPfdd
import Verif.FGemvPfdz
import Verif.FGemvPfdh
import Verif.FGemvPfzd
import Verif.FGemvPfzz
import Verif.FGemvPfzh
import Verif.FGemvPfhd
import Verif.FGemvPfhz
import Verif.FGemvPfhh
import Verif.PropsGemv
import Verif.Generic3
import Verif.Generic3Proofs
import Verif.PropsGeneric
import Verif.Generic2Proofs
import Verif.PropsGeneric2
import Verif.PropsGerExact
import Verif.FGemvActLemmas
import Verif.FGemvActdz
import Verif.FGemvActdh
import Verif.FGemvActzd
import Verif.FGemvActzz
import Verif.FGemvActzh
import Verif.FGemvActhd
import Verif.FGemvActhz
import Verif.FGemvActhh
import Verif.PropsGemvExact
import Verif.Rel
import Verif.RelF
import Verif.FBeta0dd
import Verif.FBeta0dz
import Verif.FBeta0dh
import Verif.FBeta0zd
import Verif.FBeta0zz
import Verif.FBeta0zh
import Verif.FBeta0hd
import Verif.FBeta0hz
import Verif.FBeta0hh
import Verif.FBeta0Gemv
import Verif.PropsBeta0
import Verif.Round
import Verif.RoundQ
import Verif.RoundK
import Verif.PropsRound
import Verif.GenericBits
import Verif.RoundP
import Verif.PropsRoundP
import Verif.PropsCross
import Verif.PropsTile
import Verif.PropsExpandGemm
import Verif.Generic2Bits
import Verif.PropsRound2
import Verif.PropsLocal
import Verif.PropsAlias
import Verif.Thread
import Verif.ThrAttr
import Verif.ThrPrim
import Verif.ThrSimd
import Verif.ThrPort
import Verif.ThrMix
import Verif.ThrFort
import Verif.ThrFortGemm
import Verif.ThrFoot
import Verif.ThrFootSimd
import Verif.ThrSafeSimd
import Verif.PropsThread
import Verif.ThrSafe
import Verif.ThrSafeVec
import Verif.ThrSafeL1
import Verif.ThrSafeGer
import Verif.ThrSafeGemvdd
import Verif.ThrSafeGemvdz
import Verif.ThrSafeGemvdh
import Verif.ThrSafeGemvzd
import Verif.ThrSafeGemvzz
import Verif.ThrSafeGemvzh
import Verif.ThrSafeGemvhd
import Verif.ThrSafeGemvhz
import Verif.ThrSafeGemvhh
import Verif.ThrSafeGemmd
import Verif.ThrSafeGemmz
import Verif.ThrSafeGemmh
import Verif.ThrSafeUtil
import Verif.ThrSafePort
import Verif.ThrSafeMix
import Verif.PropsSafe
import Verif.PropsLetters
import Verif.PropsNegInc
import Verif.PropsNaN
import Verif.SpecProgram
import Verif.PropsProgram
import Verif.PropsProgram2
import Verif.FGemmBits
import Verif.FGemmBitsdd
import Verif.FGemmBitsdz
import Verif.FGemmBitsdh
import Verif.FGemmBitszd
import Verif.FGemmBitszz
import Verif.FGemmBitszh
import Verif.FGemmBitshd
import Verif.FGemmBitshz
import Verif.FGemmBitshh
import Verif.FBits
import Verif.PropsFBits
import Verif.RoundF
import Verif.PropsRoundF
import Verif.FGerBits
import Verif.PropsFBits2
import Verif.FGemvBits
import Verif.PropsFBits3
import Verif.FHblas1Bits
import Verif.PropsFBits4
import Verif.PropsAgree
import Verif.PropsAlloc
import Verif.PropsAllocExact
import Verif.PropsRoundS
import Verif.PropsOverflow
import Verif.PropsF32
import Verif.PropsExact
import Verif.ExactInst
import Verif.ExactEx
import Verif.Fin
import Verif.Fin2
import Verif.PropsFin
import Verif.FinInst
import Verif.FinEx
import Verif.PropsAlias2
import Verif.PropsSwapShift
import Verif.PropsPrint
import Verif.PropsSafe2
import Verif.ThrLock
import Verif.ThrLockSimd
import Verif.ThrLockPort
import Verif.ThrLockMix
import Verif.ThrLockFort
import Verif.ThrLockGemm
import Verif.ThrLockS
import Verif.ThrLockGer
import Verif.PropsOblivious
import Verif.PropsTrace
import Verif.MixGen
import Verif.MixBits
import Verif.PropsMix
import Verif.Units
import Verif.PropsUnits
import Verif.UnitsInst
import Verif.PropsUnits2
import Verif.PropsMat
import Verif.PropsMixUnits
import Verif.PropsMatF
import Verif.PropsMixFin
import Verif.PropsMixNaN
import Verif.Fuse
import Verif.FuseUnits
import Verif.PropsFuse
import Verif.PropsMixRound
import Verif.PropsFuseNorm
import Verif.PropsTwo
import Verif.PropsTraffic
import Verif.PropsTrafficF
import Verif.PropsInPlace
import Verif.SpecClient
import Verif.PropsClient
import Verif.FuseEx
import Verif.GemmCfg
import Verif.GemmCfgProofs
import Verif.PropsCfg
import Verif.Drivers
import Verif.PropsDrivers
import Verif.Pack
import Verif.PropsPack
import Verif.PropsEqNan
import Verif.PropsTracePort
