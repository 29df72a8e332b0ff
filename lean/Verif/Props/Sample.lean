import Verif.Api.Model

/-! A concrete environment, used only to show that hypotheses of theorems can be met. -/

namespace Verif.Props

open Verif.Api Verif.EC

/-- a scheme that rejects everything. -/
def nullScheme : Scheme where
  genPub _ := .ret (.error .other)
  sign _ _ := .ret (.error .other)
  verify _ _ _ := .ret false

/-- the reference P-256 arithmetic and dummy backends for everything else. -/
def sampleEnv : Env where
  ell := Ref.impl Secp256r1.c
  sm2 := {
    curve := { Ref.impl Secp256r1.c with P := 0, N := 0 }
    sign := fun _ _ _ _ => none
    verify := fun _ _ _ _ => .ret false
    encrypt := fun _ _ _ => none
    decrypt := fun _ _ => .ret (.error .other, [])
    decompress := fun _ => .ret (.error .other)
    recover := fun _ _ => .ret (.error .other) }
  edNormal := nullScheme
  ed := nullScheme
  x25519 := nullScheme
  c25519sha256 := nullScheme
  bls := nullScheme
  pasta := nullScheme
  blsAggregate _ := .ret (.error .other)
  blsMulBaseAdd _ _ := .ret ([], false)
  edMulBaseAdd _ _ := .ret ([], false)
  edAdd _ _ := .ret ([], false)
  pastaMulBaseAdd _ _ := .ret []
  pastaAdd _ _ := .ret []
  pastaMul _ _ := .ret []
  pastaDecompress _ := .ret (.error .other)

/-- the reference arithmetic meets the assumption made about `crypto/elliptic`. -/
theorem sampleEnv_ok : CurveOk Secp256r1.c Secp256r1.good sampleEnv.ell (Rep Secp256r1.c) :=
  Ref.curveOk Secp256r1.good

def key1 : Bytes := List.replicate 31 0 ++ [7]
def key2 : Bytes := List.replicate 31 0 ++ [11]
def hash1 : Bytes := List.replicate 32 0xA5
/-- 40-byte blocks as read from the generator; the first one leads to a retry -/
def draw0 : Bytes := List.replicate 40 24
def draw1 : Bytes := List.replicate 40 10

end Verif.Props
