import Mathlib.Tactic.Ring
import Verif.Bls.Xmd
import Verif.Bls.XmdSpec

namespace Verif.Bls

open Spec

theorem i2osp1 (n : Nat) : i2osp n 1 = [UInt8.ofNat n] := by simp [i2osp]

theorem i2osp2 (n : Nat) : i2osp n 2 = [UInt8.ofNat (n / 256), UInt8.ofNat n] := by
  simp [i2osp, List.range_succ]

theorem xor32_eq {a b : Bytes} (ha : a.length = 32) (hb : b.length = 32) : xor32 a b = strxor a b := by
  apply List.ext_getElem
  · simp [xor32, strxor, ha, hb]
  · intro i h1 h2
    have hi : i < 32 := by simpa [xor32] using h1
    simp [xor32, strxor, List.getD_eq_getElem?_getD, ha, hb, hi]

theorem block_len {H : Bytes → Bytes} (hH : ∀ m, (H m).length = 32) (b0 d : Bytes) (i : Nat) : (block H b0 d i).length = 32 := by
  cases i <;> exact hH _

/-- the blocks `b_1 … b_k` in a row. -/
def blocks (H : Bytes → Bytes) (b0 d : Bytes) (k : Nat) : Bytes := (List.range k).flatMap (block H b0 d)

theorem blocks_succ (H : Bytes → Bytes) (b0 d : Bytes) (k : Nat) : blocks H b0 d (k + 1) = blocks H b0 d k ++ block H b0 d k := by
  simp [blocks, List.range_succ]

theorem blocks_len {H : Bytes → Bytes} (hH : ∀ m, (H m).length = 32) (b0 d : Bytes) (k : Nat) : (blocks H b0 d k).length = 32 * k := by
  induction k with
  | zero => rfl
  | succ k ih => rw [blocks_succ, List.length_append, ih, block_len hH]; ring

theorem copyAt_blocks {out b pre : Bytes} {pos : Nat} (ht : out.take pos = pre) (hp : pos ≤ out.length) :
    (copyAt out pos b).length = out.length ∧ (copyAt out pos b).take (pos + b.length) = (pre ++ b).take out.length := by
  have hl : pre.length = pos := by rw [← ht, List.length_take]; omega
  unfold copyAt
  rw [ht]
  constructor
  · simp only [List.length_append, List.length_take, List.length_drop, hl]
    omega
  · by_cases h : pos + b.length ≤ out.length
    · have e : b.take (out.length - pos) = b := List.take_of_length_le (by omega)
      rw [e, ← List.append_assoc, List.take_append_of_le_length (by rw [List.length_append]; omega),
        List.take_of_length_le (by rw [List.length_append]; omega), List.take_of_length_le (by rw [List.length_append]; omega)]
    · have e : out.drop (pos + (b.take (out.length - pos)).length) = [] := by
        apply List.drop_of_length_le
        rw [List.length_take]; omega
      have e2 : (pre ++ b.take (out.length - pos)).length ≤ pos + b.length := by
        rw [List.length_append, List.length_take]; omega
      rw [e, List.append_nil, List.take_of_length_le e2, List.take_append, hl, List.take_of_length_le (l := pre) (by omega)]

theorem loop_spec {H : Bytes → Bytes} (hH : ∀ m, (H m).length = 32) (b0 dom : Bytes) (hb0 : b0.length = 32) (n : Nat)
    (hd : dom.length < 256) :
    ∀ (fuel i : Nat) (bi out : Bytes), 0 < i → i + fuel ≤ 255 → 32 * (i + fuel - 1) ≤ n → out.length = n →
      bi = block H b0 (dom ++ i2osp dom.length 1) (i - 1) →
      out.take ((i - 1) * 32) = blocks H b0 (dom ++ i2osp dom.length 1) (i - 1) →
      (loop H b0 dom (UInt8.ofNat dom.length) fuel i bi out).1 = block H b0 (dom ++ i2osp dom.length 1) (i + fuel - 1) ∧
      (loop H b0 dom (UInt8.ofNat dom.length) fuel i bi out).2.length = n ∧
      (loop H b0 dom (UInt8.ofNat dom.length) fuel i bi out).2.take ((i + fuel - 1) * 32) =
        blocks H b0 (dom ++ i2osp dom.length 1) (i + fuel - 1) := by
  intro fuel
  induction fuel with
  | zero => intro i bi out hi _ _ hl hb ht; exact ⟨hb, hl, ht⟩
  | succ f ih =>
    intro i bi out hi h255 hn hl hb ht
    unfold loop
    have hbl : bi.length = 32 := by rw [hb]; exact block_len hH _ _ _
    obtain ⟨j, rfl⟩ : ∃ j, i = j + 1 := ⟨i - 1, by omega⟩
    simp only [Nat.add_sub_cancel] at hb ht ⊢
    have hc := copyAt_blocks (b := bi) ht (by omega)
    have := ih (j + 1 + 1) (H (xor32 b0 bi ++ ([1 + UInt8.ofNat (j + 1)] ++ (dom ++ [UInt8.ofNat dom.length]))))
      (copyAt out (j * 32) bi) (by omega) (by omega) (by omega) (by rw [hc.1, hl]) ?_ ?_
    · rw [show j + 1 + (f + 1) - 1 = j + 1 + 1 + f - 1 by omega]
      exact this
    · show _ = block H b0 _ (j + 1)
      rw [block, xor32_eq hb0 hbl, ← hb, i2osp1, i2osp1]
      have e : (1 : UInt8) + UInt8.ofNat (j + 1) = UInt8.ofNat (j + 2) := by
        apply UInt8.toNat_inj.mp
        rw [UInt8.toNat_add, UInt8.toNat_ofNat', UInt8.toNat_ofNat', UInt8.toNat_one]
        omega
      rw [e, List.append_assoc]
    · show _ = blocks H b0 _ (j + 1)
      have h2 := hc.2
      rw [hbl] at h2
      rw [blocks_succ, ← hb]
      rw [show (j + 1 + 1 - 1) * 32 = j * 32 + 32 by omega, h2, List.take_of_length_le]
      rw [List.length_append, blocks_len hH, hbl]
      omega

theorem expandMsg_spec {H : Bytes → Bytes} (hH : ∀ m, (H m).length = 32) {msg dst : Bytes} {len : Nat} (hl : 0 < len) {u : Bytes}
    (hu : expand H msg dst len = some u) : expandMsg H msg dst len = .ret u ∧ u.length = len := by
  unfold expand at hu
  dsimp only at hu
  split at hu
  · cases hu
  rename_i hc
  have hell : (len + 32 - 1) / 32 = (len + 31) / 32 := rfl
  injection hu with hu
  subst hu
  unfold expandMsg
  dsimp only
  rw [hell]
  have h1 : 0 < (len + 31) / 32 := by omega
  have hd : dst.length < 256 := by omega
  rw [if_neg (by omega)]
  have e0 : List.replicate 64 0 ++ msg ++ i2osp len 2 ++ i2osp 0 1 ++ (dst ++ i2osp dst.length 1) =
      List.replicate 64 0 ++ (msg ++ ([UInt8.ofNat (len / 256), UInt8.ofNat len] ++ ([0] ++ (dst ++ [UInt8.ofNat dst.length])))) := by
    rw [i2osp2, i2osp1, i2osp1]; simp
  rw [e0]
  generalize hb0 : H (List.replicate 64 0 ++ (msg ++ ([UInt8.ofNat (len / 256), UInt8.ofNat len] ++ ([0] ++ (dst ++ [UInt8.ofNat dst.length]))))) = b0
  have lb0 : b0.length = 32 := by rw [← hb0]; exact hH _
  have hb1 : H (b0 ++ ([1] ++ (dst ++ [UInt8.ofNat dst.length]))) = block H b0 (dst ++ i2osp dst.length 1) 0 := by
    rw [block, i2osp1, i2osp1, List.append_assoc]; rfl
  have hs := loop_spec hH b0 dst lb0 len hd ((len + 31) / 32 - 1) 1 _ (List.replicate len 0) (by omega) (by omega) (by omega) (by simp) hb1
    (by simp [blocks])
  rw [show 1 + ((len + 31) / 32 - 1) - 1 = (len + 31) / 32 - 1 by omega] at hs
  obtain ⟨g1, g2, g3⟩ := hs
  have hc2 := copyAt_blocks (b := block H b0 (dst ++ i2osp dst.length 1) ((len + 31) / 32 - 1)) g3 (by rw [g2]; omega)
  rw [g1]
  rw [block_len hH, g2, ← blocks_succ] at hc2
  have hk : (len + 31) / 32 - 1 + 1 = (len + 31) / 32 := by omega
  rw [hk] at hc2
  refine ⟨congrArg _ ?_, ?_⟩
  · rw [show (((len + 31) / 32 - 1) * 32 + 32) = ((len + 31) / 32) * 32 by omega, List.take_of_length_le (by rw [hc2.1]; omega)] at hc2
    rw [hc2.2, List.take_take, Nat.min_self]
    rfl
  · show ((blocks H b0 (dst ++ i2osp dst.length 1) ((len + 31) / 32)).take len).length = len
    rw [List.length_take, blocks_len hH]
    omega

end Verif.Bls
