import Verif.Bytes
import Verif.BigInt
import Verif.Go
import Verif.Primes.Certs
import Verif.EC.Jacobian
import Verif.EC.Curve
import Verif.EC.Ref
import Verif.ECDSA.Model
import Verif.ECDSA.Spec
import Verif.ECDSA.Lemmas
import Verif.ECDSA.Sign
import Verif.ECDSA.Recover
import Verif.Secp256k1.Model
import Verif.Secp256k1.Refine
import Verif.Secp256k1.Ecdsa
import Verif.Secp256r1.Curve
import Verif.Api.Model
import Verif.Api.Spec
import Verif.Api.Lemmas
import Verif.Secp256k1.Total
import Verif.SM2.Field
import Verif.SM2.Curve
import Verif.SM2.FieldLemmas
import Verif.SM2.FieldMul
import Verif.Pasta.Field
import Verif.Pasta.FieldLemmas
import Verif.Pasta.Curve
import Verif.Pasta.Mont
import Verif.Pasta.Group
import Verif.Pasta.GroupLemmas
import Verif.Pasta.Poseidon
import Verif.Pasta.PoseidonSpec
import Verif.Pasta.Api
import Verif.Pasta.Spec
import Verif.Pasta.ApiLemmas
import Verif.Pasta.ApiLemmas2
import Verif.Props.Sample
import Verif.Props.Secp
import Verif.Props.Secp2
import Verif.Props.SecpR1
import Verif.EC.Order
import Verif.SM2.Sem
import Verif.SM2.Point
import Verif.SM2.Mult
import Verif.SM2.Protocol
import Verif.SM2.Spec
import Verif.SM2.ProtocolLemmas
import Verif.SM2.KeyAgreement
import Verif.Hash.Blocks
import Verif.Hash.SM3
import Verif.Hash.SM3Spec
import Verif.Hash.SM3Lemmas
import Verif.SM2.Small
import Verif.Props.Sm2
import Verif.Props.Sm2Sign
import Verif.Props.Sm2Sign2
import Verif.Props.Sm2Bad
import Verif.Props.Sm2Recover
import Verif.Props.Sm2Enc
import Verif.Props.Sm2Ka
import Verif.Hash.KeccakF
import Verif.Hash.KeccakSpec
import Verif.Hash.KeccakLemmas
import Verif.Hash.SHA3
import Verif.Hash.SHA3Lemmas
import Verif.Hash.BlakeCore
import Verif.Hash.BlakeMixSpec
import Verif.Hash.BlakeMix
import Verif.Hash.Blake
import Verif.Hash.BlakeSpec
import Verif.Hash.BlakeLemmas
import Verif.Hash.Blake2s
import Verif.Hash.Blake2sSpec
import Verif.Hash.Blake2sLemmas
import Verif.Hash.Obj
import Verif.Hash.ObjSpec
import Verif.Hash.ObjLemmas
import Verif.Hash.ObjInst
import Verif.Api.Hash
import Verif.Props.Hash
import Verif.Props.Hash2
import Verif.EC.Edwards
import Verif.Ed25519.Field
import Verif.Ed25519.FieldLemmas
import Verif.Ed25519.FieldBytes
import Verif.Ed25519.Scalar
import Verif.Ed25519.ScalarLemmas
import Verif.Ed25519.Const
import Verif.Ed25519.Group
import Verif.Props.Ed
import Verif.Ed25519.Curve
import Verif.Ed25519.GroupLemmas
import Verif.Ed25519.Tables
import Verif.Ed25519.Slide
import Verif.Ed25519.ScalarMult
import Verif.Ed25519.Api
import Verif.Ed25519.ApiLemmas
import Verif.Props.Ed2
import Verif.Props.Pasta
import Verif.Bls.Xmd
import Verif.Bls.XmdSpec
import Verif.Bls.XmdLemmas
import Verif.Props.Bls
import Verif.C25519.Model
import Verif.C25519.FieldLemmas
import Verif.C25519.Pack
import Verif.C25519.Spec
import Verif.C25519.Ladder
import Verif.C25519.Sign
import Verif.C25519.SignLemmas
import Verif.Api.Memory
import Verif.C25519.ByteArith
import Verif.C25519.Egcd
import Verif.C25519.Mont
import Verif.C25519.Chain
import Verif.C25519.Prep
import Verif.C25519.Signs
import Verif.C25519.Group
import Verif.C25519.SignSpec
import Verif.C25519.RoundTrip
import Verif.C25519.SchemeSpec
import Verif.C25519.SchemeLemmas
import Verif.C25519.Nine
import Verif.Props.C25519
import Verif.Props.C25519Sign
import Verif.Props.C25519Nine
import Verif.Primes.BlsQ
import Verif.Bls.Fe
import Verif.Bls.FeLemmas
import Verif.Bls.MulLemmas
import Verif.Bls.Mont
import Verif.Bls.Inverse
import Verif.Bls.Fp2
import Verif.Bls.Fp2Lemmas
import Verif.Bls.Group
import Verif.Bls.GroupSpec
import Verif.Bls.GroupLemmas
import Verif.Bls.GroupBytes
import Verif.Bls.Groups
import Verif.Bls.HashG2
import Verif.Bls.HashSpec
import Verif.Bls.HashLemmas
import Verif.Bls.HashConsts
import Verif.Bls.HashSwu
import Verif.Bls.HashIso
import Verif.Bls.HashMap
import Verif.Bls.Tower
import Verif.Bls.Pairing
import Verif.Bls.Scheme
import Verif.Bls.SchemeLemmas
import Verif.Bls.HashUnique
import Verif.Bls.HashSample
import Verif.Bls.HashExists
import Verif.Bls.HashEqual
import Verif.Bls.SexticField
import Verif.Bls.PairingSpec
import Verif.Bls.TowerLemmas
import Verif.Bls.Frobenius
import Verif.Bls.FrobLemmas
import Verif.Bls.FinalExp
import Verif.Bls.MillerLemmas
import Verif.Bls.Miller
import Verif.EC.CardJ0
import Verif.Bls.PairingLemmas
import Verif.Bls.Calc
import Verif.Bls.GroupOrder
import Verif.EC.Cocycle
import Verif.EC.Lines
import Verif.Bls.Eigen
import Verif.Bls.Bilinear
import Verif.Bls.NonDeg
import Verif.Bls.VerifyLemmas
import Verif.Bls.GT
import Verif.Bls.GTLemmas
import Verif.Props.Bls2
import Verif.Props.Bls3
import Verif.Bls.MultiExp
import Verif.Bls.MultiExpLemmas
import Verif.Bls.Kyber
import Verif.Bls.KyberSpec
import Verif.Bls.KyberLemmas
import Verif.Props.Bls4
import Verif.EC.Omega
import Verif.Bls.HashG1
import Verif.Bls.HashG1Spec
import Verif.Bls.HashG1Poly
import Verif.Bls.HashG1Lemmas
import Verif.Bls.HashG1Map
import Verif.Bls.Cofactor1
import Verif.Bls.HashG1Fields
import Verif.Bls.KyberHash
import Verif.Props.Bls5
import Verif.Pasta.Helpers
import Verif.Props.Pasta2
import Verif.Pasta.Reject
import Verif.Props.Pasta3
import Verif.Bls.GTSpec
import Verif.Bls.Suite
import Verif.Bls.SuiteSpec
import Verif.Bls.SuiteLemmas
import Verif.Bls.SuiteIdeal
import Verif.Props.Bls6
import Verif.X86.Machine
import Verif.X86.Code
import Verif.X86.Arith
import Verif.X86.Spec
import Verif.X86.MulMath
import Verif.X86.Exact
import Verif.X86.Small
import Verif.X86.Adx
import Verif.X86.NoAdx
import Verif.X86.AdxBody
import Verif.X86.NoAdxBody
import Verif.X86.Calls
import Verif.X86.Build
import Verif.X86.Keccak
import Verif.X86.KeccakRound
import Verif.X86.KeccakRun
import Verif.X86.Sponge
import Verif.Props.Asm
import Verif.Props.Keccak
import Verif.Props.PointPanic
import Verif.Pasta.DivStep
import Verif.Pasta.DivStepSpec
import Verif.Props.DivStep
import Verif.Bls.Alias
import Verif.Bls.AliasSpec
import Verif.Bls.AliasCalls
import Verif.Props.Alias
import Verif.Bls.Mem
import Verif.Bls.Sched
import Verif.Bls.TowerMem
import Verif.Bls.GTMem
import Verif.Bls.Lower
import Verif.Props.AliasFe
import Verif.Props.AliasGT
import Verif.Bls.GTSched
import Verif.Bls.FeText
import Verif.Props.FeText
import Verif.Pasta.Json
import Verif.Pasta.JsonLemmas
import Verif.Props.PastaJson
import Verif.Pasta.JsonSpec
import Verif.Pasta.JsonGrammar
import Verif.Props.PastaJsonText
import Verif.Bls.Text
import Verif.Props.BlsText
