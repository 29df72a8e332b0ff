import Verif.Props.Sm2Sign

/-!
The field underflow of C22 reaches the API: `Point_mul` doubles a point of the SM2 curve to a pair of coordinates
that is not on the curve.
-/

namespace Verif.Props
open Verif.EC Verif.ECDSA Verif.Api WeierstrassCurve

/-- what `Point_mul` returns for twice the point `(offX, offY)` of the curve. -/
def offDouble : Bytes :=
  be32 88457482911202674461231342111207322269934802550098790351136239733761823271268 ++
  be32 86064332267113158342150511665707663089343904068938990498280694428951572041887

set_option maxRecDepth 100000 in
theorem off_double_run : mulPoint SM2.curve (be32 offX ++ be32 offY) (be32 2) = .ret (offDouble, false) := by
  decide +kernel

theorem pointMul_sm2_def {E : Env} (hE : Sm2Env E) {b k : Bytes} {Q : SM2.c.Pt} (h : Encodes b Q) (hk : k.length = 32) :
    pointMul E b k SM = (do return infCode (← mulPoint SM2.curve b k)) := by
  obtain ⟨c1, e1, d1⟩ := sm2_normPoint hE (.inl h)
  have hc1 : c1 = b := d1.unique h
  subst hc1
  unfold pointMul
  rw [if_neg (by decide), e1]
  simp only [Go.ret_bind]
  rw [if_neg (by omega), hE]
  rfl

/-- C22 seen at the API: for this point `Q` of the curve and the scalar 2, `Point_mul` reports SUCCESS and returns
64 bytes that encode no point of the curve, in particular not `2·Q`. -/
theorem C22_false_point_mul (E : Env) (hE : Sm2Env E) : ∃ (b : Bytes) (Q : SM2.c.Pt) (out : Bytes),
    Encodes b Q ∧ 2 • Q ≠ 0 ∧ pointMul E b (be32 2) SM = .ret (out, SUCCESS) ∧ ∀ R : SM2.c.Pt, ¬ Encodes out R := by
  have hl : (be32 offX ++ be32 offY).length = 64 := by decide +kernel
  have henc : Encodes (be32 offX ++ be32 offY) (SM2.good.point off_onCurve) := by
    refine ⟨Affine.Point.some_ne_zero _, hl, ?_, ?_⟩
    · have e : beNat ((be32 offX ++ be32 offY).take 32) = offX := by decide +kernel
      rw [e]
      show offX = ((offX : ℕ) : ZMod SM2.c.p).val
      rw [ZMod.val_natCast, Nat.mod_eq_of_lt (by decide +kernel)]
    · have e : beNat ((be32 offX ++ be32 offY).drop 32) = offY := by decide +kernel
      rw [e]
      show offY = ((offY : ℕ) : ZMod SM2.c.p).val
      rw [ZMod.val_natCast, Nat.mod_eq_of_lt (by decide +kernel)]
  refine ⟨_, _, offDouble, henc, SM2.smul_ne_zero henc.1 (by norm_num) (by decide +kernel), ?_, ?_⟩
  · rw [pointMul_sm2_def hE henc (by decide +kernel), off_double_run]
    rfl
  · intro R hR
    cases R with
    | zero => exact hR.1 rfl
    | some x y hn =>
      have hx : beNat (offDouble.take 32) = x.val := hR.2.2.1
      have hy : beNat (offDouble.drop 32) = y.val := hR.2.2.2
      have he := (W_equation x y).mp hn.1
      have ex : x = ((beNat (offDouble.take 32) : ℕ) : ZMod SM2.c.p) := by rw [hx, ZMod.natCast_zmod_val]
      have ey : y = ((beNat (offDouble.drop 32) : ℕ) : ZMod SM2.c.p) := by rw [hy, ZMod.natCast_zmod_val]
      rw [ex, ey] at he
      have he' : ((beNat (offDouble.drop 32) ^ 2 : ℕ) : ZMod SM2.c.p) =
          ((beNat (offDouble.take 32) ^ 3 + SM2.c.a * beNat (offDouble.take 32) + SM2.c.b : ℕ) : ZMod SM2.c.p) := by
        push_cast; exact he
      rw [ZMod.natCast_eq_natCast_iff'] at he'
      exact absurd he' (by decide +kernel)

/-! ## C46 on SM2 -/

/-- C46 on SM2: exactly when `Point_mul` and `Point_add` crash. -/
theorem C46_panics_iff_sm2 (E : Env) (hE : Sm2Env E) (b1 b2 k : Bytes) :
    (pointMul E b1 k SM = .panic ↔ BadCompressed b1) ∧
    (pointAdd E b1 b2 SM = .panic ↔ BadCompressed b1 ∨
      ((b1.length = 33 ∨ b1.length = 64 ∨ b1.length = 65) ∧ BadCompressed b2)) := by
  have hn : ∀ b, (BadCompressed b ∧ normPoint E b SM = .panic) ∨
      (¬ BadCompressed b ∧ ((b.length ≠ 33 ∧ b.length ≠ 64 ∧ b.length ≠ 65 ∧ normPoint E b SM = .ret none) ∨
        ((b.length = 33 ∨ b.length = 64 ∨ b.length = 65) ∧ ∃ b', b'.length = 64 ∧ normPoint E b SM = .ret (some b')))) :=
    fun b => normPoint_char E sm2_decGood (fun _ hb => dec_sm2 hE _ hb) b
  constructor
  · unfold pointMul
    rw [if_neg (by decide)]
    rcases hn b1 with ⟨hb, he⟩ | ⟨hb, ⟨-, -, -, he⟩ | ⟨-, b', hl, he⟩⟩
    · rw [he]; simp [hb]
    · rw [he]; simp [hb]
    · rw [he]
      simp only [Go.ret_bind, hb, iff_false]
      split
      · simp
      obtain ⟨r, hr⟩ := mulPoint_ret (C := E.sm2.curve) (k := k) hl
      rw [if_neg (by decide), if_neg (by decide), if_pos (by trivial), hr]; simp
  · unfold pointAdd
    rw [if_neg (by decide)]
    rcases hn b1 with ⟨hb, he⟩ | ⟨hb, ⟨h1, h2, h3, he⟩ | ⟨hlen, b', hl, he⟩⟩
    · rw [he]; simp [hb]
    · rw [he]; simp [hb]; omega
    · rw [he]
      simp only [Go.ret_bind, hb, false_or, hlen, true_and]
      rcases hn b2 with ⟨hb2, he2⟩ | ⟨hb2, ⟨-, -, -, he2⟩ | ⟨-, b2', hl2, he2⟩⟩
      · rw [he2]; simp [hb2]
      · rw [he2]; simp [hb2]
      · rw [he2]
        simp only [Go.ret_bind, hb2, iff_false]
        obtain ⟨r, hr⟩ := addPoints_ret (C := E.sm2.curve) hl hl2
        rw [if_neg (by decide), if_neg (by decide), if_pos (by trivial), hr]; simp

-- both outcomes occur
example : BadCompressed (List.replicate 33 0) ∧ ¬ BadCompressed (2 :: List.replicate 32 0) :=
  ⟨by unfold BadCompressed; decide, by unfold BadCompressed; decide⟩

end Verif.Props
