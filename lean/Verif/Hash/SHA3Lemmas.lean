import Verif.Hash.SHA3
import Verif.Hash.KeccakLemmas

/-! # The SHA-3 model computes the sponge of FIPS 202 -/

namespace Verif.SHA3

open Verif.Hash

/-! ## lanes and bytes -/

theorem le64_nil : le64 [] = 0 := rfl

theorem view0 (s : Lanes) (x y : Fin 5) : view 0 s x y = s.get ⟨5 * y.val + x.val, by omega⟩ := rfl

theorem get_mapIdx (f : ℕ → BitVec 64 → BitVec 64) (s : Lanes) (i : Fin 25) : (s.mapIdx f).get i = f i.val (s.get i) := by
  fin_cases i <;> rfl

theorem lanes_ext {s t : Lanes} (h : ∀ i, s.get i = t.get i) : s = t := by
  obtain ⟨a0, a1, a2, a3, a4, a5, a6, a7, a8, a9, a10, a11, a12, a13, a14, a15, a16, a17, a18, a19, a20, a21, a22, a23, a24⟩ := s
  obtain ⟨b0, b1, b2, b3, b4, b5, b6, b7, b8, b9, b10, b11, b12, b13, b14, b15, b16, b17, b18, b19, b20, b21, b22, b23, b24⟩ := t
  rw [Lanes.mk.injEq]
  exact ⟨h 0, h 1, h 2, h 3, h 4, h 5, h 6, h 7, h 8, h 9, h 10, h 11, h 12, h 13, h 14, h 15, h 16, h 17, h 18, h 19, h 20, h 21,
    h 22, h 23, h 24⟩

theorem view_inj {s t : Lanes} (h : view 0 s = view 0 t) : s = t := by
  apply lanes_ext
  intro i
  have := congrFun (congrFun h ⟨i.val % 5, by omega⟩) ⟨i.val / 5, by omega⟩
  rw [view0, view0] at this
  have e : (⟨5 * (i.val / 5) + i.val % 5, by omega⟩ : Fin 25) = i := Fin.ext (by simp only; omega)
  simp only [e] at this
  exact this

/-- the rates of the package. -/
structure RateOk (r : ℕ) : Prop where
  pos : 8 ≤ r
  le : r ≤ 168
  dvd : r % 8 = 0

theorem xorIn_view (a : Lanes) (b : Bytes) (h : b.length % 8 = 0) :
    view 0 (xorIn a b) = Spec.xorState (view 0 a) (Spec.load b) := by
  funext x y
  unfold xorIn Spec.xorState Spec.load
  rw [view0, get_mapIdx, view0]
  dsimp only
  split
  · rfl
  · next hn =>
    rw [List.drop_of_length_le (by omega)]
    simp [leNat]

theorem zero_view : view 0 Lanes.zero = fun _ _ => 0 := by
  funext x y
  rw [view0]
  generalize (⟨5 * y.val + x.val, _⟩ : Fin 25) = i
  fin_cases i <;> rfl

theorem toList_eq (a : Lanes) : a.toList = (List.range 25).map (fun i => a.get (Fin.ofNat 25 i)) := rfl

theorem putLE64_eq (x : BitVec 64) : putLE64 x = (List.range 8).map fun j => UInt8.ofNat (x.toNat / 256 ^ j) := by
  show _ = [_, _, _, _, _, _, _, _]
  simp [putLE64]

theorem flatMap_bytes (f : ℕ → BitVec 64) (n : ℕ) :
    ((List.range n).map f).flatMap putLE64 = (List.range (8 * n)).map fun i => UInt8.ofNat ((f (i / 8)).toNat / 256 ^ (i % 8)) := by
  induction n with
  | zero => rfl
  | succ n ih =>
    rw [List.range_succ, List.map_append, List.flatMap_append, ih, Nat.mul_succ, List.range_add, List.map_append]
    congr 1
    simp only [List.map_cons, List.map_nil, List.flatMap_cons, List.flatMap_nil, List.append_nil, putLE64_eq, List.map_map]
    apply List.map_congr_left
    intro j hj
    rw [List.mem_range] at hj
    simp only [Function.comp_apply]
    rw [show (8 * n + j) / 8 = n by omega, show (8 * n + j) % 8 = j by omega]

theorem copyOut_eq (a : Lanes) {r : ℕ} (hr : RateOk r) : copyOut a r = (List.range r).map (Spec.byteAt (view 0 a)) := by
  unfold copyOut
  rw [toList_eq, ← List.map_take, List.take_range, Nat.min_eq_left (by have := hr.le; omega), flatMap_bytes,
    show 8 * (r / 8) = r by have := hr.dvd; omega]
  apply List.map_congr_left
  intro i hi
  rw [List.mem_range] at hi
  have := hr.le
  unfold Spec.byteAt
  rw [view0]
  congr 4
  apply Fin.ext
  simp only [Fin.ofNat]
  omega

theorem copyOut_length (a : Lanes) {r : ℕ} (hr : RateOk r) : (copyOut a r).length = r := by
  rw [copyOut_eq a hr]; simp

/-- the two versions of `xorIn` agree on the block sizes of the package. -/
theorem xorInUnaligned_eq (a : Lanes) (b : Bytes) (h : b.length ∈ [72, 104, 136, 144, 168]) : xorInUnaligned a b = xorIn a b := by
  apply lanes_ext
  intro i
  unfold xorInUnaligned xorIn
  dsimp only
  rw [get_mapIdx]
  simp only [List.mem_cons, List.not_mem_nil, or_false] at h
  rcases h with h | h | h | h | h <;> rw [h] <;> simp [get_mapIdx] <;> split_ifs <;> first | rfl | omega

/-! ## absorbing -/

theorem put_length (st : Bytes) (i : ℕ) (b : Bytes) (h : i + b.length ≤ st.length) : (put st i b).length = st.length := by
  unfold put; simp; omega

theorem put_take (st : Bytes) (i : ℕ) (b : Bytes) (h : i + b.length ≤ st.length) : (put st i b).take (i + b.length) = st.take i ++ b := by
  unfold put
  rw [List.take_append_of_le_length (by simp; omega), List.take_of_length_le (by simp)]

/-- one block. -/
def step (a : Lanes) (b : Bytes) : Lanes := keccakF1600 (xorIn a b)

/-- the state after writing `m`. -/
structure Absorbed (r : ℕ) (ds : UInt8) (ol : ℕ) (s : St) (m : Bytes) : Prop where
  hr : RateOk r
  rate : s.rate = r
  hds : s.ds = ds
  hol : s.outputLen = ol
  sq : s.squeezing = false
  off : s.off = 0
  st : s.storage.length = 168
  len : s.len = m.length % r
  buf : s.storage.take s.len = rest r m
  a : s.a = fullBlocks r step Lanes.zero m

theorem absorbed_new {r : ℕ} (hr : RateOk r) (ds : UInt8) (ol : ℕ) : Absorbed r ds ol (new r ol ds) [] :=
  ⟨hr, rfl, rfl, rfl, rfl, rfl, rfl, by simp [new], by simp [new, rest], by simp [fullBlocks, new, runBlocks]⟩

theorem Absorbed.reset {r : ℕ} {ds : UInt8} {ol : ℕ} {s : St} {m : Bytes} (h : Absorbed r ds ol s m) :
    Absorbed r ds ol (SHA3.reset s) [] :=
  ⟨h.hr, h.rate, h.hds, h.hol, rfl, rfl, h.st, by simp [SHA3.reset], by simp [SHA3.reset, rest], by simp [fullBlocks, SHA3.reset, runBlocks]⟩

theorem Absorbed.writeLoop {r : ℕ} {ds : UInt8} {ol : ℕ} (n : ℕ) {s : St} {m : Bytes} (h : Absorbed r ds ol s m) (p : Bytes)
    (hn : p.length ≤ n) : Absorbed r ds ol (SHA3.writeLoop n s p) (m ++ p) := by
  induction n generalizing s m p with
  | zero =>
    rw [List.eq_nil_of_length_eq_zero (Nat.le_zero.mp hn), List.append_nil]
    exact h
  | succ n ih =>
    have hr0 : 0 < r := by have := h.hr.pos; omega
    have hrle := h.hr.le
    have hmod : m.length % r < r := Nat.mod_lt _ hr0
    rw [SHA3.writeLoop]
    split
    · next hp =>
      rw [List.eq_nil_of_length_eq_zero hp, List.append_nil]; exact h
    · next hp =>
      split
      · next hc =>
        obtain ⟨hc1, hc2⟩ := hc
        rw [h.rate] at hc2
        have e := fullBlocks_append r step hr0 Lanes.zero m (p.take r)
        have hrest : rest r m = [] := by rw [← h.buf, hc1]; rfl
        have ho := one_block r step hr0 (fullBlocks r step Lanes.zero m) (p.take r) (by rw [List.length_take]; omega)
        rw [hrest, List.nil_append, ho.1, ho.2] at e
        have hsplit : m ++ p = (m ++ p.take r) ++ p.drop r := by rw [List.append_assoc, List.take_append_drop]
        rw [hsplit, show p.drop s.rate = p.drop r by rw [h.rate], show p.take s.rate = p.take r by rw [h.rate]]
        refine ih (s := { s with a := keccakF1600 (xorIn s.a (p.take r)) }) ⟨h.hr, h.rate, h.hds, h.hol, h.sq, h.off, h.st, ?_, ?_, ?_⟩
          (p.drop r) (by rw [List.length_drop]; omega)
        · show s.len = _
          rw [hc1, ← rest_length, ← e.2]; rfl
        · show List.take s.len s.storage = _
          rw [hc1, ← e.2]; rfl
        · show keccakF1600 (xorIn s.a _) = _
          rw [← e.1, h.a]; rfl
      · next hc =>
        generalize htd : (if s.rate - s.len > p.length then p.length else s.rate - s.len) = todo
        have hlen := h.len
        have hrate := h.rate
        have htd2 : todo ≤ p.length ∧ s.len + todo ≤ r ∧ 0 < todo := by
          rw [← htd, hrate, hlen]; split <;> omega
        have hpt : (p.take todo).length = todo := by rw [List.length_take]; omega
        have e := fullBlocks_append r step hr0 Lanes.zero m (p.take todo)
        have hput : (put s.storage (s.off + s.len) (p.take todo)).take (s.len + todo) = rest r m ++ p.take todo := by
          have := put_take s.storage (s.off + s.len) (p.take todo) (by rw [h.off, h.st, hpt]; omega)
          rw [hpt, h.off, Nat.zero_add, h.buf] at this
          rw [h.off, Nat.zero_add]; exact this
        have hbl : (rest r m ++ p.take todo).length = s.len + todo := by
          rw [List.length_append, rest_length, hpt, hlen]
        have hstl : (put s.storage (s.off + s.len) (p.take todo)).length = 168 := by
          rw [put_length _ _ _ (by rw [h.off, h.st, hpt]; omega), h.st]
        dsimp only
        have hsplit : m ++ p = (m ++ p.take todo) ++ p.drop todo := by rw [List.append_assoc, List.take_append_drop]
        rw [hsplit]
        refine ih ?_ (p.drop todo) (by rw [List.length_drop]; omega)
        split
        · next hfull =>
          rw [hrate] at hfull
          have ho := one_block r step hr0 (fullBlocks r step Lanes.zero m) (rest r m ++ p.take todo) (by rw [hbl]; exact hfull)
          rw [ho.1, ho.2] at e
          unfold permute
          rw [if_neg (by simp [h.sq])]
          refine ⟨h.hr, h.rate, h.hds, h.hol, h.sq, rfl, hstl, ?_, ?_, ?_⟩
          · show 0 = _
            rw [← rest_length, ← e.2]; rfl
          · show List.take 0 _ = _
            rw [← e.2]; rfl
          · rw [← e.1, ← h.a]
            show keccakF1600 (xorIn s.a _) = _
            unfold step St.buf
            dsimp only
            rw [← hput, h.off]; rfl
        · next hfull =>
          rw [hrate] at hfull
          have ho := short_block r step (fullBlocks r step Lanes.zero m) (rest r m ++ p.take todo) (by rw [hbl]; omega)
          rw [ho.1, ho.2] at e
          refine ⟨h.hr, h.rate, h.hds, h.hol, h.sq, h.off, hstl, ?_, ?_, ?_⟩
          · show s.len + todo = _
            rw [← rest_length, ← e.2, hbl]
          · exact hput.trans e.2
          · rw [← e.1, ← h.a]

theorem Absorbed.write {r : ℕ} {ds : UInt8} {ol : ℕ} {s : St} {m : Bytes} (h : Absorbed r ds ol s m) (p : Bytes) :
    ∃ s', SHA3.write s p = .ret s' ∧ Absorbed r ds ol s' (m ++ p) :=
  ⟨_, by unfold SHA3.write; rw [if_neg (by simp [h.sq])], h.writeLoop _ p (le_refl _)⟩

/-! ## padding -/

/-- the bytes that complete a last block with `z` free bytes. -/
def suffix (ds : UInt8) (z : ℕ) : Bytes := if z = 1 then [ds ^^^ 0x80] else [ds] ++ List.replicate (z - 2) 0 ++ [0x80]

theorem suffix_length (ds : UInt8) {z : ℕ} (hz : 0 < z) : (suffix ds z).length = z := by
  unfold suffix; split <;> simp <;> omega

theorem pad_def (r : ℕ) (ds : UInt8) (m : Bytes) : Spec.pad r ds m = m ++ suffix ds (r - m.length % r) := rfl

theorem put_pad (st : Bytes) (len r : ℕ) (ds : UInt8) (h1 : len < r) (h2 : r ≤ st.length) :
    let st1 := put st len [ds]
    let st2 := put st1 (len + 1) (List.replicate (r - (len + 1)) 0)
    let st3 := put st2 (r - 1) [st2.getD (r - 1) 0 ^^^ 0x80]
    st3.length = st.length ∧ st3.take r = st.take len ++ suffix ds (r - len) := by
  intro st1 st2 st3
  have l1 : st1.length = st.length := put_length _ _ _ (by simp; omega)
  have l2 : st2.length = st.length := by rw [← l1]; exact put_length _ _ _ (by simp; omega)
  have l3 : st3.length = st.length := by rw [← l2]; exact put_length _ _ _ (by simp; omega)
  refine ⟨l3, ?_⟩
  have t1 : st1.take (len + 1) = st.take len ++ [ds] := put_take st len [ds] (by simp; omega)
  have t2 : st2.take r = st.take len ++ [ds] ++ List.replicate (r - (len + 1)) 0 := by
    have := put_take st1 (len + 1) (List.replicate (r - (len + 1)) 0) (by simp; omega)
    rw [t1, List.length_replicate, show len + 1 + (r - (len + 1)) = r by omega] at this
    exact this
  have t3 : st3.take r = st2.take (r - 1) ++ [st2.getD (r - 1) 0 ^^^ 0x80] := by
    have := put_take st2 (r - 1) [st2.getD (r - 1) 0 ^^^ 0x80] (by simp; omega)
    rw [List.length_singleton, show r - 1 + 1 = r by omega] at this
    exact this
  have e1 : st2.take (r - 1) = (st2.take r).take (r - 1) := by rw [List.take_take]; congr 1; omega
  have e2 : st2.getD (r - 1) 0 = (st2.take r).getD (r - 1) 0 := by
    rw [List.getD_eq_getElem?_getD, List.getD_eq_getElem?_getD, List.getElem?_take, if_pos (by omega)]
  have hl : (st.take len).length = len := by rw [List.length_take]; omega
  rw [t3, e1, e2, t2]
  unfold suffix
  split
  · next hz =>
    rw [show r - (len + 1) = 0 by omega, show r - 1 = len by omega]
    simp [hl]
  · next hz =>
    obtain ⟨z, hzz⟩ : ∃ z, r = len + z + 2 := ⟨r - len - 2, by omega⟩
    rw [hzz, show len + z + 2 - (len + 1) = z + 1 by omega, show len + z + 2 - 1 = len + z + 1 by omega,
      show len + z + 2 - len - 2 = z by omega]
    have hlen2 : (st.take len ++ [ds]).length = len + 1 := by simp [hl]
    have ht : (st.take len ++ [ds] ++ List.replicate (z + 1) (0 : UInt8)).take (len + z + 1) =
        st.take len ++ ([ds] ++ List.replicate z 0) := by
      rw [List.take_append, hlen2, List.take_of_length_le (by rw [hlen2]; omega), show len + z + 1 - (len + 1) = z by omega,
        List.take_replicate, Nat.min_eq_left (by omega), List.append_assoc]
    have hg : (st.take len ++ [ds] ++ List.replicate (z + 1) (0 : UInt8)).getD (len + z + 1) 0 = 0 := by
      rw [List.getD_eq_getElem?_getD, List.getElem?_append_right (by rw [hlen2]; omega), hlen2,
        show len + z + 1 - (len + 1) = z by omega, List.getElem?_replicate, if_pos (by omega)]
      rfl
    rw [ht, hg]
    simp

theorem absorb_eq {r : ℕ} (hr : RateOk r) (P : Bytes) (k : ℕ) (h : r * k ≤ P.length) :
    Spec.absorb r P k = view 0 (runBlocks r step k Lanes.zero P) := by
  induction k with
  | zero => exact zero_view.symm
  | succ k ih =>
    rw [Nat.mul_succ] at h
    rw [runBlocks_add, Spec.absorb, ih (by omega), runBlocks, runBlocks, step, keccakF_view, xorIn_view]
    rw [List.length_take, List.length_drop, Nat.min_eq_left (by omega), hr.dvd]

/-- the state at the end of absorbing. -/
def spongeState (r : ℕ) (ds : UInt8) (m : Bytes) : Spec.State :=
  Spec.absorb r (Spec.pad r ds m) ((Spec.pad r ds m).length / r)

theorem spongeState_eq {r : ℕ} (hr : RateOk r) (ds : UInt8) (m : Bytes) :
    spongeState r ds m = view 0 (step (fullBlocks r step Lanes.zero m) (rest r m ++ suffix ds (r - m.length % r))) := by
  have hr0 : 0 < r := by have := hr.pos; omega
  have hmod : m.length % r < r := Nat.mod_lt _ hr0
  unfold spongeState
  rw [absorb_eq hr _ _ (Nat.mul_div_le _ _)]
  have e := fullBlocks_append r step hr0 Lanes.zero m (suffix ds (r - m.length % r))
  have ho := one_block r step hr0 (fullBlocks r step Lanes.zero m) (rest r m ++ suffix ds (r - m.length % r))
    (by rw [List.length_append, rest_length, suffix_length _ (by omega)]; omega)
  rw [← ho.1, e.1]; rfl

/-! ## squeezing -/

/-- the state after reading `pos` bytes, `S` being the state at the end of absorbing. -/
structure Squeezed (r : ℕ) (S : Spec.State) (s : St) (pos : ℕ) : Prop where
  hr : RateOk r
  rate : s.rate = r
  sq : s.squeezing = true
  st : s.storage.length = 168
  off : s.off = pos % r
  len : s.len = r - pos % r
  a : view 0 s.a = Spec.keccakF^[pos / r] S
  buf : s.storage.take r = copyOut s.a r

theorem Absorbed.padAndPermute {r : ℕ} {ds : UInt8} {ol : ℕ} {s : St} {m : Bytes} (h : Absorbed r ds ol s m) :
    Squeezed r (spongeState r ds m) (SHA3.padAndPermute s ds) 0 := by
  have hr0 : 0 < r := by have := h.hr.pos; omega
  have hmod : m.length % r < r := Nat.mod_lt _ hr0
  have hp := put_pad s.storage s.len r ds (by rw [h.len]; exact hmod) (by rw [h.st]; exact h.hr.le)
  unfold SHA3.padAndPermute permute
  dsimp only at hp ⊢
  rw [if_neg (by simp [h.sq]), h.off, Nat.zero_add]
  dsimp only
  rw [h.rate]
  unfold St.buf
  dsimp only
  rw [List.drop_zero, hp.2, h.buf, h.a]
  have hc := copyOut_length (keccakF1600 (xorIn (fullBlocks r step Lanes.zero m) (rest r m ++ suffix ds (r - s.len)))) h.hr
  refine ⟨h.hr, rfl, rfl, ?_, ?_, ?_, ?_, ?_⟩
  · rw [put_length _ _ _ (by rw [hp.1, hc, h.st, Nat.zero_add]; exact h.hr.le), hp.1, h.st]
  · simp
  · simp
  · rw [spongeState_eq h.hr, h.len]
    simp [step]
  · have := put_take _ 0 (copyOut (keccakF1600 (xorIn (fullBlocks r step Lanes.zero m) (rest r m ++ suffix ds (r - s.len)))) r)
      (by rw [hp.1, hc, h.st, Nat.zero_add]; exact h.hr.le)
    rw [hc, Nat.zero_add] at this
    exact this

theorem Squeezed.permute {r : ℕ} {S : Spec.State} {s : St} {pos : ℕ} (hr : RateOk r) (rate : s.rate = r) (sq : s.squeezing = true)
    (st : s.storage.length = 168) (a : view 0 s.a = Spec.keccakF^[pos] S) : Squeezed r S (SHA3.permute s) (r * (pos + 1)) := by
  have hr0 : 0 < r := by have := hr.pos; omega
  unfold SHA3.permute
  rw [if_pos sq]
  have hc := copyOut_length (keccakF1600 s.a) hr
  dsimp only
  rw [rate]
  refine ⟨hr, rfl, sq, ?_, ?_, ?_, ?_, ?_⟩
  · rw [put_length _ _ _ (by rw [hc, st, Nat.zero_add]; exact hr.le), st]
  · simp
  · simp
  · rw [Nat.mul_div_cancel_left _ hr0, Function.iterate_succ_apply', ← a, keccakF_view]
  · have := put_take s.storage 0 (copyOut (keccakF1600 s.a) r) (by rw [hc, st, Nat.zero_add]; exact hr.le)
    rw [hc, Nat.zero_add] at this
    exact this

theorem divmod_add {r pos i : ℕ} (hr0 : 0 < r) (hi : pos % r + i < r) : (pos + i) / r = pos / r ∧ (pos + i) % r = pos % r + i := by
  have hpc : pos + i = (pos % r + i) + r * (pos / r) := by have := Nat.div_add_mod pos r; omega
  constructor
  · conv_lhs => rw [hpc]
    rw [Nat.add_mul_div_left _ _ hr0, Nat.div_eq_of_lt hi, Nat.zero_add]
  · conv_lhs => rw [hpc]
    rw [Nat.add_mul_mod_self_left, Nat.mod_eq_of_lt hi]

theorem Squeezed.buf_eq {r : ℕ} {S : Spec.State} {s : St} {pos : ℕ} (h : Squeezed r S s pos) (c : ℕ) (hc : c ≤ s.len) :
    s.buf.take c = (List.range' pos c).map (Spec.streamByte r S) := by
  have hr0 : 0 < r := by have := h.hr.pos; omega
  have hmod : pos % r < r := Nat.mod_lt _ hr0
  have hlen := h.len
  have e : s.buf = (s.storage.take r).drop s.off := by
    unfold St.buf
    rw [List.drop_take, h.len, h.off]
  rw [e, h.buf, copyOut_eq _ h.hr, h.off, h.a]
  apply List.ext_getElem
  · simp; omega
  · intro i h1 h2
    simp only [List.length_map, List.length_range'] at h2
    simp only [List.getElem_take, List.getElem_drop, List.getElem_map, List.getElem_range, List.getElem_range', Nat.one_mul]
    unfold Spec.streamByte
    have e := divmod_add (pos := pos) (i := i) hr0 (by omega)
    rw [e.1, e.2]

theorem Squeezed.readLoop {r : ℕ} {S : Spec.State} (k : ℕ) {s : St} {pos : ℕ} (h : Squeezed r S s pos) (n : ℕ) (out : Bytes)
    (hk : n ≤ k) : Squeezed r S (SHA3.readLoop k s n out).1 (pos + n) ∧
      (SHA3.readLoop k s n out).2 = out ++ (List.range' pos n).map (Spec.streamByte r S) := by
  induction k generalizing s pos n out with
  | zero =>
    obtain rfl : n = 0 := by omega
    simpa [SHA3.readLoop] using h
  | succ k ih =>
    have hr0 : 0 < r := by have := h.hr.pos; omega
    have hmod : pos % r < r := Nat.mod_lt _ hr0
    rw [SHA3.readLoop]
    split
    · next h0 => subst h0; simpa using h
    · next h0 =>
      generalize hcd : (if s.len < n then s.len else n) = c
      have hlen := h.len
      have hc : c ≤ s.len ∧ c ≤ n ∧ 0 < c := by rw [← hcd]; split <;> omega
      dsimp only
      rw [h.buf_eq c hc.1]
      have hs : Squeezed r S (if s.len - c = 0 then SHA3.permute { s with off := s.off + c, len := s.len - c }
          else { s with off := s.off + c, len := s.len - c }) (pos + c) := by
        have hdm := Nat.div_add_mod pos r
        split
        · next hz =>
          have : pos + c = r * (pos / r + 1) := by rw [Nat.mul_succ]; omega
          rw [this]
          exact Squeezed.permute h.hr h.rate h.sq h.st h.a
        · next hz =>
          obtain ⟨e1, e2⟩ := divmod_add (pos := pos) (i := c) hr0 (by omega)
          refine ⟨h.hr, h.rate, h.sq, h.st, ?_, ?_, ?_, h.buf⟩
          · show s.off + c = _
            rw [e2, h.off]
          · show s.len - c = _
            rw [e2, h.len]; omega
          · rw [e1]; exact h.a
      have := ih hs (n - c) (out ++ (List.range' pos c).map (Spec.streamByte r S)) (by omega)
      rw [show pos + c + (n - c) = pos + n by omega] at this
      refine ⟨this.1, this.2.trans ?_⟩
      rw [List.append_assoc, ← List.map_append]
      congr 2
      have := List.range'_append_1 (s := pos) (m := c) (n := n - c)
      rw [this]; congr 1; omega

/-- `Read` on a state that absorbed `m`. -/
theorem Absorbed.read {r : ℕ} {ds : UInt8} {ol : ℕ} {s : St} {m : Bytes} (h : Absorbed r ds ol s m) (n : ℕ) :
    Squeezed r (spongeState r ds m) (SHA3.read s n).1 n ∧ (SHA3.read s n).2 = Spec.sponge r ds m n := by
  unfold SHA3.read
  rw [if_neg (by simp [h.sq]), h.hds]
  have := h.padAndPermute.readLoop n n [] (le_refl _)
  rw [Nat.zero_add, List.nil_append, ← List.range_eq_range'] at this
  exact this

theorem Squeezed.read {r : ℕ} {S : Spec.State} {s : St} {pos : ℕ} (h : Squeezed r S s pos) (n : ℕ) :
    Squeezed r S (SHA3.read s n).1 (pos + n) ∧ (SHA3.read s n).2 = (List.range' pos n).map (Spec.streamByte r S) := by
  unfold SHA3.read
  rw [if_pos h.sq]
  have := h.readLoop n n [] (le_refl _)
  rwa [List.nil_append] at this

theorem Absorbed.clone {r : ℕ} {ds : UInt8} {ol : ℕ} {s : St} {m : Bytes} (h : Absorbed r ds ol s m) : SHA3.clone s = .ret s := by
  unfold SHA3.clone
  rw [if_neg (by simp [h.sq]), ← h.off]

/-- `Sum` appends the digest of everything written. -/
theorem Absorbed.sum {r : ℕ} {ds : UInt8} {ol : ℕ} {s : St} {m : Bytes} (h : Absorbed r ds ol s m) (inp : Bytes) :
    SHA3.sum s inp = .ret (inp ++ Spec.sponge r ds m ol) := by
  unfold SHA3.sum
  rw [h.clone, Go.ret_bind, h.hol, (h.read ol).2]

theorem sumOf_eq {r : ℕ} (hr : RateOk r) (ds : UInt8) (ol : ℕ) (m : Bytes) :
    sumOf (new r ol ds) m = .ret (Spec.sponge r ds m ol) := by
  obtain ⟨s, hs, h⟩ := (absorbed_new hr ds ol).write m
  unfold sumOf
  rw [hs, Go.ret_bind, h.sum]; rfl

theorem shakeSum_eq {r : ℕ} (hr : RateOk r) (ds : UInt8) (ol : ℕ) (m : Bytes) (n : ℕ) :
    shakeSum (new r ol ds) m n = .ret (Spec.sponge r ds m n) := by
  obtain ⟨s, hs, h⟩ := (absorbed_new hr ds ol).write m
  unfold shakeSum
  rw [hs, Go.ret_bind, (h.read n).2]; rfl

end Verif.SHA3
