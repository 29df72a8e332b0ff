import Verif.Ed25519.Tables

/-!
# `slide` and the scalar multiplications
-/

namespace Verif.Ed25519

open Edwards

/-! ## `slide` -/

/-- the value of a list of binary digits, least significant first. -/
def bval : List Int → Int
  | [] => 0
  | x :: r => x + 2 * bval r

def Bits (l : List Int) : Prop := ∀ x ∈ l, x = 0 ∨ x = 1

/-- what `slide` produces: zero or odd and at most 15. -/
def Good (d : Int) : Prop := d = 0 ∨ (d % 2 = 1 ∧ -15 ≤ d ∧ d ≤ 15)

instance (d : Int) : Decidable (Good d) := by unfold Good; infer_instance

theorem bval_append (a b : List Int) : bval (a ++ b) = bval a + 2 ^ a.length * bval b := by
  induction a with
  | nil => simp [bval]
  | cons x a ih => simp only [List.cons_append, bval, ih, List.length_cons, pow_succ]; ring

theorem Bits.tail {x : Int} {l : List Int} (h : Bits (x :: l)) : Bits l := fun y hy => h y (List.mem_cons_of_mem _ hy)
theorem Bits.head {x : Int} {l : List Int} (h : Bits (x :: l)) : x = 0 ∨ x = 1 := h x List.mem_cons_self
theorem Bits.cons {x : Int} {l : List Int} (hx : x = 0 ∨ x = 1) (h : Bits l) : Bits (x :: l) := by
  intro y hy
  rcases List.mem_cons.mp hy with rfl | hy
  · exact hx
  · exact h y hy
theorem Bits.append {a b : List Int} (ha : Bits a) (hb : Bits b) : Bits (a ++ b) := by
  intro y hy
  rcases List.mem_append.mp hy with h | h
  · exact ha y h
  · exact hb y h

theorem bval_bounds {l : List Int} (h : Bits l) : 0 ≤ bval l ∧ bval l < 2 ^ l.length := by
  induction l with
  | nil => simp [bval]
  | cons x l ih =>
    have := ih h.tail
    have hx := h.head
    simp only [bval, List.length_cons, pow_succ]
    omega

theorem carryUp_length (l : List Int) : (carryUp l).length = l.length := by
  induction l with
  | nil => rfl
  | cons x l ih =>
    simp only [carryUp]
    split <;> simp [ih]

theorem carryUp_bits {l : List Int} (h : Bits l) : Bits (carryUp l) := by
  induction l with
  | nil => exact h
  | cons x l ih =>
    simp only [carryUp]
    split
    · exact Bits.cons (Or.inr rfl) h.tail
    · exact Bits.cons (Or.inl rfl) (ih h.tail)

theorem carryUp_val {l : List Int} (h : Bits l) (hl : bval l + 1 < 2 ^ l.length) : bval (carryUp l) = bval l + 1 := by
  induction l with
  | nil => simp [bval] at hl
  | cons x l ih =>
    simp only [carryUp]
    split
    · rename_i hx
      simp only [bval, hx]; ring
    · rename_i hx
      have hx1 : x = 1 := h.head.resolve_left hx
      simp only [bval, List.length_cons, pow_succ] at hl ⊢
      rw [ih h.tail (by omega), hx1]; ring

theorem i8_eq {x : Int} (h : -128 ≤ x) (h' : x < 128) : i8 x = x := by
  unfold i8
  rw [Int.bmod_eq_of_le] <;> norm_num <;> omega

theorem split_at (r : List Int) (k : ℕ) (h : k < r.length) : r = r.take k ++ r.getD k 0 :: r.drop (k + 1) := by
  conv_lhs => rw [← List.take_append_drop k r, List.drop_eq_getElem_cons h]
  simp [List.getD, h]

theorem bval_at (r : List Int) (k : ℕ) (h : k < r.length) :
    bval r = bval (r.take k) + 2 ^ k * (r.getD k 0 + 2 * bval (r.drop (k + 1))) := by
  conv_lhs => rw [split_at r k h]
  rw [bval_append, List.length_take, Nat.min_eq_left (by omega), bval]

theorem bval_set (r : List Int) (k : ℕ) (h : k < r.length) (v : Int) : bval (r.set k v) = bval r + 2 ^ k * (v - r.getD k 0) := by
  rw [bval_at r k h, List.set_eq_take_append_cons_drop, if_pos h, bval_append, List.length_take, Nat.min_eq_left (by omega), bval]
  ring

theorem Bits.take {r : List Int} (h : Bits r) (k : ℕ) : Bits (r.take k) := fun x hx => h x (List.mem_of_mem_take hx)
theorem Bits.drop {r : List Int} (h : Bits r) (k : ℕ) : Bits (r.drop k) := fun x hx => h x (List.mem_of_mem_drop hx)

theorem Bits.set {r : List Int} (h : Bits r) (k : ℕ) : Bits (r.set k 0) := by
  intro x hx
  rcases List.mem_or_eq_of_mem_set hx with h1 | h1
  · exact h x h1
  · exact Or.inl h1

theorem Bits.getD {r : List Int} (h : Bits r) (k : ℕ) : r.getD k 0 = 0 ∨ r.getD k 0 = 1 := by
  rcases Nat.lt_or_ge k r.length with hk | hk
  · have : r.getD k 0 = r[k] := by simp [List.getD, hk]
    rw [this]; exact h _ (List.getElem_mem hk)
  · left; simp [List.getD, hk]

/-- one round of the inner loop and those after it keep the value. -/
theorem slideIn_spec (f b : ℕ) (hb : 1 ≤ b) (hf : f + b ≤ 7) {x : Int} {r : List Int} (hr : Bits r) (hx : x % 2 = 1) (h1 : -15 ≤ x)
    (h2 : x ≤ 15) (hm : 6 ≤ r.length) (hW : x + 2 * bval r < 2 ^ (r.length - 2) + 16) :
    let o := slideIn f b x r
    Bits o.2 ∧ o.2.length = r.length ∧ o.1 % 2 = 1 ∧ -15 ≤ o.1 ∧ o.1 ≤ 15 ∧ o.1 + 2 * bval o.2 = x + 2 * bval r := by
  induction f generalizing b x r with
  | zero => exact ⟨hr, rfl, hx, h1, h2, rfl⟩
  | succ f ih =>
    simp only [slideIn]
    by_cases hlt : b - 1 < r.length
    · rw [if_pos hlt]
      by_cases hy : r.getD (b - 1) 0 = 0
      · rw [if_neg (by simpa using hy)]
        exact ih (b + 1) (by omega) (by omega) hr hx h1 h2 hm hW
      · rw [if_pos hy]
        have hy1 := (hr.getD (b - 1)).resolve_left hy
        rw [hy1]
        have hb6 : b ≤ 6 := by omega
        obtain ⟨k, rfl⟩ : ∃ k, b = k + 1 := ⟨b - 1, by omega⟩
        have hpow : (2 : Int) ^ (k + 1) = 2 * 2 ^ k := by rw [pow_succ]; ring
        have hp1 : (1 : Int) ≤ 2 ^ k := one_le_pow₀ (by norm_num)
        have hp2 : (2 : Int) ^ k ≤ 32 := by
          calc (2 : Int) ^ k ≤ 2 ^ 5 := pow_le_pow_right₀ (by norm_num) (by omega)
            _ = 32 := by norm_num
        rw [one_mul, i8_eq (x := 2 ^ (k + 1)) (by omega) (by omega), hpow, i8_eq (x := x + 2 * 2 ^ k) (by omega) (by omega),
          i8_eq (x := x - 2 * 2 ^ k) (by omega) (by omega)]
        simp only [Nat.add_sub_cancel] at hlt hy1 ⊢
        generalize hq : (2 : Int) ^ k = q at *
        split
        · rename_i hle
          have e := bval_set r k hlt 0
          rw [hy1, hq] at e
          have := ih (k + 1 + 1) (by omega) (by omega) (x := x + 2 * q) (r := r.set k 0) (hr.set k) (by omega) (by omega) hle
            (by rw [List.length_set]; exact hm) (by rw [List.length_set, e]; linarith)
          rw [List.length_set, e] at this
          obtain ⟨a1, a2, a3, a4, a5, a6⟩ := this
          exact ⟨a1, a2, a3, a4, a5, by rw [a6]; ring⟩
        · split
          · rename_i hge
            have sp : bval r = bval (r.take k) + q * bval (r.drop k) := by
              conv_lhs => rw [← List.take_append_drop k r]
              rw [bval_append, List.length_take, Nat.min_eq_left (by omega), hq]
            have tb := bval_bounds (hr.take k)
            rw [List.length_take, Nat.min_eq_left (by omega), hq] at tb
            have ov : bval (r.drop k) + 1 < 2 ^ (r.drop k).length := by
              by_contra hc
              rw [List.length_drop] at hc
              have hM : (2 : Int) ^ r.length = q * 2 ^ (r.length - k) := by
                rw [← hq, ← pow_add]; congr 1; omega
              have h4 : (2 : Int) ^ r.length = 4 * 2 ^ (r.length - 2) := by
                rw [show (4 : Int) = 2 ^ 2 by norm_num, ← pow_add]; congr 1; omega
              have h16 : (16 : Int) ≤ 2 ^ (r.length - 2) := by
                calc (16 : Int) = 2 ^ 4 := by norm_num
                  _ ≤ 2 ^ (r.length - 2) := pow_le_pow_right₀ (by norm_num) (by omega)
              have hmul : q * (2 ^ (r.length - k) - 1) ≤ q * bval (r.drop k) := by
                apply mul_le_mul_of_nonneg_left _ (by omega)
                push Not at hc
                omega
              rw [mul_sub, ← hM, h4, mul_one] at hmul
              omega
            have cv := carryUp_val (hr.drop k) ov
            have e : bval (r.take k ++ carryUp (r.drop k)) = bval r + q := by
              rw [bval_append, List.length_take, Nat.min_eq_left (by omega), hq, cv, sp]; ring
            have hl : (r.take k ++ carryUp (r.drop k)).length = r.length := by
              rw [List.length_append, carryUp_length, ← List.length_append, List.take_append_drop]
            have := ih (k + 1 + 1) (by omega) (by omega) (x := x - 2 * q) (r := r.take k ++ carryUp (r.drop k))
              ((hr.take k).append (carryUp_bits (hr.drop k))) (by omega) hge (by omega) (by rw [hl]; exact hm) (by rw [hl, e]; linarith)
            rw [hl, e] at this
            obtain ⟨a1, a2, a3, a4, a5, a6⟩ := this
            exact ⟨a1, a2, a3, a4, a5, by rw [a6]; ring⟩
          · exact ⟨hr, rfl, hx, h1, h2, rfl⟩
    · rw [if_neg hlt]
      exact ⟨hr, rfl, hx, h1, h2, rfl⟩


theorem slideGo_six {l : List Int} (h : Bits l) (hl : l.length = 6) (hV : bval l < 24) :
    bval (slideGo 6 l) = bval l ∧ (slideGo 6 l).length = 6 ∧ ∀ d ∈ slideGo 6 l, Good d := by
  match l, hl with
  | [a, b, c, d, e, f], _ =>
    have ha := h a (by simp); have hb := h b (by simp); have hc := h c (by simp)
    have hd := h d (by simp); have he := h e (by simp); have hf := h f (by simp)
    clear h
    rcases ha with rfl | rfl <;> rcases hb with rfl | rfl <;> rcases hc with rfl | rfl <;> rcases hd with rfl | rfl <;>
      rcases he with rfl | rfl <;> rcases hf with rfl | rfl <;> revert hV <;> decide

theorem slideGo_spec (n : ℕ) {l : List Int} (h : Bits l) (hl : l.length = n + 6) (hV : bval l < 2 ^ (n + 3) + 16) :
    bval (slideGo (n + 6) l) = bval l ∧ (slideGo (n + 6) l).length = n + 6 ∧ ∀ d ∈ slideGo (n + 6) l, Good d := by
  induction n generalizing l with
  | zero => exact slideGo_six h hl (by simpa using hV)
  | succ n ih =>
    match l, hl with
    | x :: r, hl =>
      have hl' : r.length = n + 6 := by simpa using (by simpa using hl : r.length + 1 = n + 1 + 6)
      simp only [bval] at hV ⊢
      rw [show n + 1 + 6 = (n + 6) + 1 from by omega]
      rw [show n + 1 + 3 = (n + 3) + 1 from by omega, pow_succ] at hV
      simp only [slideGo]
      by_cases hx : x = 0
      · rw [if_neg (by simpa using hx)]
        obtain ⟨a1, a2, a3⟩ := ih h.tail hl' (by omega)
        refine ⟨by simp only [bval, a1], by simp [a2], ?_⟩
        intro d hd
        rcases List.mem_cons.mp hd with rfl | hd
        · exact Or.inl hx
        · exact a3 d hd
      · rw [if_pos hx]
        have hx1 := h.head.resolve_left hx
        have := slideIn_spec 6 1 le_rfl le_rfl (x := x) (r := r) h.tail (by omega) (by omega) (by omega) (by omega)
          (by rw [hl', show n + 6 - 2 = (n + 3) + 1 from by omega, pow_succ]; exact hV)
        obtain ⟨b1, b2, b3, b4, b5, b6⟩ := this
        generalize slideIn 6 1 x r = o at *
        obtain ⟨x', r'⟩ := o
        simp only at b1 b2 b3 b4 b5 b6 ⊢
        obtain ⟨a1, a2, a3⟩ := ih b1 (b2.trans hl') (by omega)
        refine ⟨by simp only [bval, a1, b6], by simp [a2], ?_⟩
        intro d hd
        rcases List.mem_cons.mp hd with rfl | hd
        · exact Or.inr ⟨b3, b4, b5⟩
        · exact a3 d hd

theorem byte_bits (n : ℕ) (h : n < 256) : bval ((List.range 8).map (fun k => ((n / 2 ^ k % 2 : ℕ) : Int))) = n := by
  simp only [List.range, List.range.loop, List.map, bval]
  omega

theorem bitsOf_length (a : Bytes) : (bitsOf a).length = 8 * a.length := by
  induction a with
  | nil => rfl
  | cons b a ih => simp [bitsOf, ih]; omega

theorem bitsOf_val (a : Bytes) : bval (bitsOf a) = leNat a := by
  induction a with
  | nil => rfl
  | cons b a ih =>
    rw [bitsOf, bval_append, byte_bits _ (UInt8.toNat_lt b), ih, leNat]
    simp

theorem bitsOf_bits (a : Bytes) : Bits (bitsOf a) := by
  induction a with
  | nil => intro x hx; simp [bitsOf] at hx
  | cons b a ih =>
    refine Bits.append ?_ ih
    intro x hx
    obtain ⟨k, _, rfl⟩ := List.mem_map.mp hx
    omega

/-- `slide` is a signed recoding of every scalar below `2^253`. -/
theorem slide_spec {a : Bytes} (h : a.length = 32) (hv : leNat a < 2 ^ 253) :
    bval (slide a) = leNat a ∧ (slide a).length = 256 ∧ ∀ d ∈ slide a, Good d := by
  have := slideGo_spec 250 (bitsOf_bits a) (by rw [bitsOf_length, h]) (by
    rw [bitsOf_val]
    have : ((leNat a : ℕ) : Int) < ((2 ^ 253 : ℕ) : Int) := by exact_mod_cast hv
    have h2 : ((2 ^ 253 : ℕ) : Int) = 2 ^ (250 + 3) := by norm_num
    omega)
  rw [bitsOf_val] at this
  exact this

end Verif.Ed25519
