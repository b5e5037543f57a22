import Verif.Lemmas.AffineRel
import Verif.Lemmas.Algorithms
import Verif.Lemmas.Ate12Bilin
import Verif.Lemmas.Ate12Pairing
import Verif.Lemmas.Ate12Zero
import Verif.Lemmas.AteAltBn128
import Verif.Lemmas.AteBls12381
import Verif.Lemmas.AteEdwBilin
import Verif.Lemmas.AteEdwPairing
import Verif.Lemmas.AteEdwards
import Verif.Lemmas.AteLoop
import Verif.Lemmas.AteMnt4
import Verif.Lemmas.AteMnt6
import Verif.Lemmas.AteMntAffine
import Verif.Lemmas.AteMntBilin
import Verif.Lemmas.AteMntPairing
import Verif.Lemmas.AteMntSetup
import Verif.Lemmas.AteSetup
import Verif.Lemmas.AteSetup12
import Verif.Lemmas.AteTower12
import Verif.Lemmas.AteValue
import Verif.Lemmas.Bigint
import Verif.Lemmas.Bilinear
import Verif.Lemmas.Binary
import Verif.Lemmas.BinaryField
import Verif.Lemmas.BinaryFields
import Verif.Lemmas.BinaryOps
import Verif.Lemmas.BinaryQuot
import Verif.Lemmas.BinaryRep
import Verif.Lemmas.Bn128
import Verif.Lemmas.BosCost
import Verif.Lemmas.BosCoster
import Verif.Lemmas.Canonical
import Verif.Lemmas.Cofactor
import Verif.Lemmas.Constants
import Verif.Lemmas.ConstantsCheck
import Verif.Lemmas.Containers
import Verif.Lemmas.Cost
import Verif.Lemmas.Counters
import Verif.Lemmas.Cubic
import Verif.Lemmas.Curve
import Verif.Lemmas.CurveBatch
import Verif.Lemmas.CurveEdw
import Verif.Lemmas.CurveEdwOrder
import Verif.Lemmas.CurveEdwRep
import Verif.Lemmas.CurveIO
import Verif.Lemmas.CurveJac
import Verif.Lemmas.CurveNM
import Verif.Lemmas.CurveOrder
import Verif.Lemmas.CurveProj
import Verif.Lemmas.Cyclo
import Verif.Lemmas.Double
import Verif.Lemmas.EdwSteps
import Verif.Lemmas.EdwTorsion
import Verif.Lemmas.EdwTorsionMul
import Verif.Lemmas.EdwZeroLoop
import Verif.Lemmas.FieldUtils
import Verif.Lemmas.FieldsAltBn128
import Verif.Lemmas.FieldsBls12381
import Verif.Lemmas.FieldsEdwards
import Verif.Lemmas.FieldsMnt4
import Verif.Lemmas.FieldsMnt6
import Verif.Lemmas.FinalExp12
import Verif.Lemmas.FinalExpW
import Verif.Lemmas.FpAsm
import Verif.Lemmas.FpAsm3
import Verif.Lemmas.FpAsmMont
import Verif.Lemmas.FpInv
import Verif.Lemmas.FpRepr
import Verif.Lemmas.FpType
import Verif.Lemmas.FrAction
import Verif.Lemmas.Group
import Verif.Lemmas.GroupCounters
import Verif.Lemmas.GroupLaws
import Verif.Lemmas.GroupOrder
import Verif.Lemmas.GroupParam
import Verif.Lemmas.GroupRel
import Verif.Lemmas.InPlace
import Verif.Lemmas.InPlaceAsm
import Verif.Lemmas.Init
import Verif.Lemmas.InitCurves
import Verif.Lemmas.InitThreads
import Verif.Lemmas.LineCocycle
import Verif.Lemmas.LineRecip
import Verif.Lemmas.MillerAbs
import Verif.Lemmas.MillerDouble
import Verif.Lemmas.MillerSteps
import Verif.Lemmas.Mnt6AffineZero
import Verif.Lemmas.Mnt6Zero
import Verif.Lemmas.Mpn
import Verif.Lemmas.MulByQ
import Verif.Lemmas.Multiexp
import Verif.Lemmas.MultiexpRel
import Verif.Lemmas.NM
import Verif.Lemmas.OrderAltBn128
import Verif.Lemmas.OrderBls12381
import Verif.Lemmas.OrderMnt4
import Verif.Lemmas.OrderMnt6
import Verif.Lemmas.OutcomeRel
import Verif.Lemmas.PairingAbs
import Verif.Lemmas.PairingEq
import Verif.Lemmas.PairingEval
import Verif.Lemmas.PairingIO
import Verif.Lemmas.PairingRel
import Verif.Lemmas.PairingRelEdw
import Verif.Lemmas.PairingValueAltBn128
import Verif.Lemmas.PairingValueBls12381
import Verif.Lemmas.PairingValueEdw
import Verif.Lemmas.PairingValueMnt
import Verif.Lemmas.Parallel
import Verif.Lemmas.ParallelRace
import Verif.Lemmas.PointCount
import Verif.Lemmas.Primality
import Verif.Lemmas.Primes
import Verif.Lemmas.PrimesBinary
import Verif.Lemmas.PrimesCof
import Verif.Lemmas.Print
import Verif.Lemmas.Profiling
import Verif.Lemmas.Quad
import Verif.Lemmas.Random
import Verif.Lemmas.Release
import Verif.Lemmas.ReleaseZero
import Verif.Lemmas.Represents
import Verif.Lemmas.Sampling
import Verif.Lemmas.SamplingFields
import Verif.Lemmas.SamplingGroups
import Verif.Lemmas.Sizes
import Verif.Lemmas.Stream
import Verif.Lemmas.StreamInt
import Verif.Lemmas.TateEdw
import Verif.Lemmas.TateValueEdw
import Verif.Lemmas.Threads
import Verif.Lemmas.Tower
import Verif.Lemmas.TowerConst
import Verif.Lemmas.Truncate
import Verif.Lemmas.TwistHom
import Verif.Lemmas.Utils
import Verif.Lemmas.W32
import Verif.Lemmas.W32Bigint
import Verif.Lemmas.Window
import Verif.Lemmas.WindowExact
import Verif.Lemmas.Witness
import Verif.Lemmas.WnafExact
import Verif.Lemmas.X86
import Verif.Lemmas.X86Chain
import Verif.Model.Algorithms
import Verif.Model.Bigint
import Verif.Model.Binary
import Verif.Model.Bn128
import Verif.Model.Cofactor
import Verif.Model.Containers
import Verif.Model.Cost
import Verif.Model.Counters
import Verif.Model.Curve
import Verif.Model.CurveIO
import Verif.Model.CurveParams
import Verif.Model.Double
import Verif.Model.Ext
import Verif.Model.FieldMul
import Verif.Model.FieldUtils
import Verif.Model.Fp
import Verif.Model.FpAsm
import Verif.Model.FpAux
import Verif.Model.Group
import Verif.Model.GroupCounters
import Verif.Model.GroupsAltBn128
import Verif.Model.GroupsBls12381
import Verif.Model.GroupsBn128
import Verif.Model.GroupsEdwards
import Verif.Model.GroupsMnt4
import Verif.Model.GroupsMnt6
import Verif.Model.Helpers
import Verif.Model.InPlace
import Verif.Model.Init
import Verif.Model.InitCurves
import Verif.Model.InitThreads
import Verif.Model.Mpn
import Verif.Model.MulByQ
import Verif.Model.MulByQCurves
import Verif.Model.Multiexp
import Verif.Model.Outcome
import Verif.Model.Pairing
import Verif.Model.Pairing12
import Verif.Model.PairingCurves12
import Verif.Model.PairingCurvesW
import Verif.Model.PairingEdwards
import Verif.Model.PairingIO
import Verif.Model.PairingMnt
import Verif.Model.PairingPp
import Verif.Model.Parallel
import Verif.Model.Params
import Verif.Model.Print
import Verif.Model.Profiling
import Verif.Model.Random
import Verif.Model.Release
import Verif.Model.Reserialize
import Verif.Model.Sampling
import Verif.Model.Sizes
import Verif.Model.Stream
import Verif.Model.TowerParams
import Verif.Model.Utils
import Verif.Model.W32
import Verif.Model.W32Bigint
import Verif.Model.W32Params
import Verif.Model.X86
import Verif.Props.AffinePairing
import Verif.Props.AffineZero
import Verif.Props.Algorithms
import Verif.Props.Bigint
import Verif.Props.Bilinear
import Verif.Props.BilinearEdw
import Verif.Props.Binary
import Verif.Props.Bn128
import Verif.Props.Bn128Multiexp
import Verif.Props.Canonical
import Verif.Props.Cofactor
import Verif.Props.CofactorPairing
import Verif.Props.ConstAltBn128
import Verif.Props.ConstBls12381
import Verif.Props.ConstEdwards
import Verif.Props.ConstMnt4
import Verif.Props.ConstMnt6
import Verif.Props.Constants
import Verif.Props.Containers
import Verif.Props.Cost
import Verif.Props.Counters
import Verif.Props.CrossCurve
import Verif.Props.Curve
import Verif.Props.CurveIO
import Verif.Props.CurveIOCurves
import Verif.Props.Cyclo
import Verif.Props.Double
import Verif.Props.EdwOutside
import Verif.Props.Edwards
import Verif.Props.Ext
import Verif.Props.FieldUtils
import Verif.Props.FinalExp
import Verif.Props.Fp
import Verif.Props.FpAsm
import Verif.Props.FpIO
import Verif.Props.FrAction
import Verif.Props.Frobenius
import Verif.Props.GenAltBn128
import Verif.Props.GenBls12381
import Verif.Props.GenEdwards
import Verif.Props.GenMnt4
import Verif.Props.GenMnt6
import Verif.Props.Group
import Verif.Props.GroupCounters
import Verif.Props.GroupLaws
import Verif.Props.Helpers
import Verif.Props.InPlace
import Verif.Props.Init
import Verif.Props.InitThreads
import Verif.Props.KeyCommit
import Verif.Props.MillerDouble
import Verif.Props.MillerSteps
import Verif.Props.MillerStepsEdw
import Verif.Props.Mnt6Zero
import Verif.Props.MulByQ
import Verif.Props.Multiexp
import Verif.Props.MultiexpCurves
import Verif.Props.Nondegenerate
import Verif.Props.PairingBatch
import Verif.Props.PairingBijection
import Verif.Props.PairingEq
import Verif.Props.PairingIO
import Verif.Props.PairingSum
import Verif.Props.Parallel
import Verif.Props.Print
import Verif.Props.Profiling
import Verif.Props.Release
import Verif.Props.Reserialize
import Verif.Props.Sampling
import Verif.Props.Sizes
import Verif.Props.TargetGroup
import Verif.Props.TatePairing
import Verif.Props.Truncate
import Verif.Props.Untrusted
import Verif.Props.UntrustedCurves
import Verif.Props.UntrustedVec
import Verif.Props.Utils
import Verif.Props.W32
import Verif.Props.W32Bits
import Verif.Props.WindowExact
import Verif.Spec.Bilinear
import Verif.Spec.Binary
import Verif.Spec.BitVec
import Verif.Spec.Bn128
import Verif.Spec.Canonical
import Verif.Spec.Codec
import Verif.Spec.Cofactor
import Verif.Spec.Constants
import Verif.Spec.Containers
import Verif.Spec.Cost
import Verif.Spec.Counters
import Verif.Spec.Curve
import Verif.Spec.CurveIO
import Verif.Spec.Double
import Verif.Spec.EdwExt
import Verif.Spec.Ext
import Verif.Spec.FpParams
import Verif.Spec.FrAction
import Verif.Spec.Group
import Verif.Spec.GroupCounters
import Verif.Spec.GroupLaws
import Verif.Spec.GroupRel
import Verif.Spec.InPlace
import Verif.Spec.Init
import Verif.Spec.InitThreads
import Verif.Spec.KeyCommit
import Verif.Spec.Limbs
import Verif.Spec.Lines
import Verif.Spec.Mont
import Verif.Spec.Multiexp
import Verif.Spec.MultiexpRel
import Verif.Spec.Pairing
import Verif.Spec.PairingBatch
import Verif.Spec.PairingBijection
import Verif.Spec.PairingEq
import Verif.Spec.PairingSum
import Verif.Spec.Print
import Verif.Spec.Profiling
import Verif.Spec.Release
import Verif.Spec.Reserialize
import Verif.Spec.SameGroup
import Verif.Spec.Sampling
import Verif.Spec.Sizes
import Verif.Spec.Sqrt
import Verif.Spec.StreamInt
import Verif.Spec.TargetGroup
import Verif.Spec.Threads
import Verif.Spec.TowerConst
import Verif.Spec.Truncate
import Verif.Spec.TwistEndo
import Verif.Spec.W32
import Verif.Spec.W32Limbs
import Verif.Tests.Vectors
