import Verif.Proof.AesGcm
import Verif.Proof.AesArm
import Verif.Model.AesGcmArm

/-!
GHASH and AES-GCM on aarch64, by equality with the x86_64 functions.
-/
namespace Verif.GhashArm
open Verif Verif.Simd Verif.Neon

/-- The same accumulators in the other model. -/
def acc (s : Acc) : GhashX86.Acc := ⟨s.lo, s.mi, s.hi⟩

theorem vext1_eq (v : Q) : vext1 v v = shuffle32 v 0b01001110 := (swap_eq v).symm

theorem mulAcc_eq (s : Acc) (x h hx : Q) : acc (mulAcc s x h hx) = GhashX86.mulAcc (acc s) x h hx := by
  rw [GhashX86.mulAcc, mulAcc, vext1_eq]; rfl

theorem poly_lo : lo64 POLY_HI = lo64 GhashX86.POLY_HI := by decide

theorem vmullFix_poly (v : Q) : vmullFix POLY_HI v = clmulepi64 GhashX86.POLY_HI v 0x00 := by
  rw [vmullFix, poly_lo]; rfl

theorem reduce_eq (s : Acc) : reduce s = GhashX86.reduce (acc s) := by
  rw [reduce, GhashX86.reduce]
  simp only [vext1_eq, vmullFix_poly]
  rfl

theorem xorHalves_eq (h : Q) : xorHalves h = GhashX86.xorHalves h := by
  rw [xorHalves, vext1_eq]; rfl

theorem mul_eq (a b : Q) : mul a b = GhashX86.mul a b := by
  rw [mul, reduce_eq, mulAcc_eq, xorHalves_eq]; rfl

theorem gf128_eq (h : Q) : gf128BigEndian h = GhashX86.gf128BigEndian h := by
  rw [gf128BigEndian, GhashX86.gf128BigEndian]
  simp only [vsetq32, dword0, dword1, dword2, dword3]
  rfl

/-- The same table in the other model. -/
def GhashTable.avx (t : GhashTable) : GhashX86.TableAvx := ⟨t.powers, t.powersXor⟩

theorem table_eq (h : BitVec 128) : (GhashTable.new h).avx = GhashX86.TableAvx.new h := by
  rw [GhashTable.new, GhashX86.TableAvx.new, GhashTable.avx]
  simp only [mul_eq, xorHalves_eq, gf128_eq, GhashX86.powersFrom, List.map_cons, List.map_nil]

theorem mul8_eq (t : GhashTable) (a b c d e f g h : Q) :
    mul8 t a b c d e f g h = GhashX86.mul8 t.avx a b c d e f g h := by
  rw [mul8, GhashX86.mul8]
  simp only [reduce_eq, mulAcc_eq]
  rfl

theorem toBe_eq (v : Q) : toBe v = shuffle8 v GhashX86.BYTESWAP := by
  rw [GhashX86.bswap_store, toBe, vext1, vrev64q]
  obtain ⟨a0, a1, a2, a3, a4, a5, a6, a7, a8, a9, a10, a11, a12, a13, a14, a15, h⟩ :=
    GhashX86.bytes16 (store v) (store_length v)
  rw [h]
  have key : ∀ (x y : Bytes), x.length = 8 → y.length = 8 →
      lo64 (load (x ++ y)) ++ hi64 (load (x ++ y)) = load (y ++ x) := by
    intro x y hx hy
    have hx' := leNat_lt x
    have hy' := leNat_lt y
    rw [hx] at hx'; rw [hy] at hy'
    apply BitVec.eq_of_toNat_eq
    have app : ∀ (p q : BitVec 64), (p ++ q).toNat = q.toNat + 2 ^ 64 * p.toNat := by
      intro p q
      rw [BitVec.toNat_append, ← Nat.shiftLeft_add_eq_or_of_lt q.isLt, Nat.shiftLeft_eq]; omega
    rw [app, lo64, hi64, BitVec.extractLsb'_toNat, BitVec.extractLsb'_toNat, load, load, BitVec.toNat_ofNat,
      BitVec.toNat_ofNat, leNat_append, leNat_append, hx, hy, Nat.shiftRight_eq_div_pow, Nat.shiftRight_eq_div_pow]
    generalize leNat x = u at *
    generalize leNat y = v at *
    simp only [show (256 : Nat) ^ 8 = 18446744073709551616 from rfl, show (2 : Nat) ^ 64 = 18446744073709551616 from rfl,
      show (2 : Nat) ^ 128 = 340282366920938463463374607431768211456 from rfl, Nat.pow_zero, Nat.div_one] at *
    rw [Nat.mod_eq_of_lt (show u + 18446744073709551616 * v < 340282366920938463463374607431768211456 by omega),
      Nat.mod_eq_of_lt (show v + 18446744073709551616 * u < 340282366920938463463374607431768211456 by omega),
      Nat.add_mul_div_left _ _ (by omega), Nat.div_eq_of_lt hx', Nat.add_mul_mod_self_left, Nat.mod_eq_of_lt hx',
      Nat.zero_add, Nat.mod_eq_of_lt hy']
  exact key [a7, a6, a5, a4, a3, a2, a1, a0] [a15, a14, a13, a12, a11, a10, a9, a8] rfl rfl

theorem addEight_eq (t : GhashTable) (cur a b c d e f g h : Q) : addEightBlocks t cur a b c d e f g h =
    GhashX86.mul8 t.avx (cur ^^^ shuffle8 a GhashX86.BYTESWAP) (shuffle8 b GhashX86.BYTESWAP)
      (shuffle8 c GhashX86.BYTESWAP) (shuffle8 d GhashX86.BYTESWAP) (shuffle8 e GhashX86.BYTESWAP)
      (shuffle8 f GhashX86.BYTESWAP) (shuffle8 g GhashX86.BYTESWAP) (shuffle8 h GhashX86.BYTESWAP) := by
  rw [addEightBlocks, mul8_eq]
  simp only [toBe_eq]
  rfl

theorem add_eq (t : GhashTable) (cur : Q) (b : Bytes) : add t cur b = GhashX86.add (.avx t.avx) cur b := by
  rw [add, GhashX86.add]
  simp only [eightBlocks, oneBlock, mul8_eq, mul_eq]
  rfl

theorem add_ok (h cur : BitVec 128) (b : Bytes) :
    add (GhashTable.new h) cur b = Spec.Ghash.absorb h cur (Spec.Ghash.blocksOf b) := by
  rw [add_eq, table_eq]
  exact GhashX86.add_ok false h cur b

theorem addBlock_ok (h cur : BitVec 128) (b : Bytes) (hb : b.length = 16) :
    addBlock (GhashTable.new h) cur (load b) = Spec.Ghash.absorb h cur (Spec.Ghash.blocksOf b) := by
  rw [addBlock, toBe_eq, GhashX86.bswap_load b hb, mul_eq]
  have e : (GhashTable.new h).p 0 = (GhashX86.TableAvx.new h).p 0 := by rw [← table_eq]; rfl
  rw [e, veorq, GhashX86.mul_h _ h rfl, GhashX86.blocksOf_cons b (by omega), List.take_of_length_le (by omega),
    List.drop_of_length_le (by omega), GhashX86.blocksOf_nil]
  rfl

end Verif.GhashArm

namespace Verif.AesGcmArm
open Verif Verif.Simd Verif.Neon Verif.AesArm Verif.GhashArm Verif.AesGcm

/-! ### The counter -/

theorem cb_mod (nonce : Bytes) (n : Nat) : cb nonce (n + 2 ^ 32) = cb nonce n := by
  rw [show (2 : Nat) ^ 32 = 256 ^ 4 from rfl, cb, ← toBE_mod 4 (n + 256 ^ 4), Nat.add_mod_right, toBE_mod, cb]

/-- The counter register from which the next block will be `cb nonce n`. -/
def reg (nonce : Bytes) (n : Nat) : Q := vrev32q (load (cb nonce (n + (2 ^ 32 - 1))))

theorem split12 (b : Bytes) (h : b.length = 12) : b = b.take 4 ++ ((b.drop 4).take 4 ++ b.drop 8) := by
  match b, h with
  | [a0, a1, a2, a3, a4, a5, a6, a7, a8, a9, a10, a11], _ => rfl

theorem rev_cb (nonce : Bytes) (n : Nat) (h : nonce.length = 12) : vrev32q (load (cb nonce n)) =
    dwords (BitVec.ofNat 32 (beNat (nonce.take 4))) (BitVec.ofNat 32 (beNat ((nonce.drop 4).take 4)))
      (BitVec.ofNat 32 (beNat (nonce.drop 8))) (BitVec.ofNat 32 n) := by
  have e : cb nonce n = nonce.take 4 ++ ((nonce.drop 4).take 4 ++ (nonce.drop 8 ++ toBE 4 n)) := by
    rw [cb]
    conv => lhs; rw [split12 nonce h]
    simp only [List.append_assoc]
  rw [e, vrev32q_words _ _ _ _ (by simp; omega) (by simp; omega) (by simp; omega) (toBE_length _ _),
    AesX86.load_words _ _ _ _ (by simp; omega) (by simp; omega) (by simp; omega) (by simp),
    ← beNat_eq_leNat_reverse, ← beNat_eq_leNat_reverse, ← beNat_eq_leNat_reverse, ← beNat_eq_leNat_reverse, beNat_toBE]
  congr 1
  apply BitVec.eq_of_toNat_eq
  rw [BitVec.toNat_ofNat, BitVec.toNat_ofNat]
  exact Nat.mod_mod _ _

theorem inc_eq : inc = dwords 0#32 0#32 0#32 1#32 := by decide +kernel

theorem rev_rev (b : Bytes) (h : b.length = 16) : vrev32q (vrev32q (load b)) = load b := by
  obtain ⟨a0, a1, a2, a3, a4, a5, a6, a7, a8, a9, a10, a11, a12, a13, a14, a15, rfl⟩ := GhashX86.bytes16 b h
  have e : vrev32q (load [a0, a1, a2, a3, a4, a5, a6, a7, a8, a9, a10, a11, a12, a13, a14, a15]) =
      load [a3, a2, a1, a0, a7, a6, a5, a4, a11, a10, a9, a8, a15, a14, a13, a12] := by
    rw [vrev32q, store_load _ rfl]; rfl
  rw [e, vrev32q, store_load _ rfl]
  rfl

theorem next_ok (nonce : Bytes) (n : Nat) (h : nonce.length = 12) :
    next (reg nonce n) = (reg nonce (n + 1), load (cb nonce n)) := by
  have e : vaddq32 (reg nonce n) inc = reg nonce (n + 1) := by
    rw [reg, reg, rev_cb _ _ h, rev_cb _ _ h, inc_eq, vaddq32]
    simp only [dword0, dword1, dword2, dword3, BitVec.add_zero]
    rw [← BitVec.ofNat_add, Nat.add_right_comm]
  have e2 : vrev32q (reg nonce (n + 1)) = load (cb nonce n) := by
    rw [reg, rev_rev _ (cb_length _ _ h), show n + 1 + (2 ^ 32 - 1) = n + 2 ^ 32 by omega, cb_mod]
  rw [next, e]
  simp only [e2]

theorem first_ok (nonce : Bytes) : vrev32q (vld1q (cb nonce 1)) = reg nonce 2 := by
  rw [reg, show 2 + (2 ^ 32 - 1) = 1 + 2 ^ 32 by omega, cb_mod]; rfl

/-! ### The loops -/

/-- The state of the x86_64 model with the output and GHASH state of this one. -/
def st (nonce : Bytes) (n : Nat) (s : AesGcm.St M128) : St := ⟨reg nonce n, s.current, s.out⟩

theorem by8_eq (k : AesArm.AesKey) (kx : AesX86.AesKey) (hk : ∀ b, k.enc b = kx.enc b) (h : BitVec 128) (enc : Bool)
    (nonce : Bytes) (hn : nonce.length = 12) (n : Nat) (cur : M128) (out b : Bytes) :
    by8 enc k (GhashTable.new h) ⟨reg nonce n, cur, out⟩ b =
      st nonce (n + 8) (AesGcm.by8 enc kx (GhashX86.TableAvx.new h) ⟨ctr (cb nonce n), cur, out⟩ b) := by
  rw [by8, AesGcm.by8]
  simp only [next_ok _ _ hn, AesGcm.next_ok _ _ hn, hk, addEight_eq, table_eq, veorq, vld1q, vst1q]
  rw [st]
  simp only [BitVec.xor_comm (load _)]
  cases enc <;> rfl

/-- By-8 steps, in the shape `loop_ok` wants. -/
def by8X (enc : Bool) (k : AesArm.AesKey) (h : BitVec 128) (s : AesGcm.St M128) (b : Bytes) : AesGcm.St M128 :=
  let r := by8 enc k (GhashTable.new h) ⟨s.counter, s.current, s.out⟩ b
  ⟨r.counter, r.current, r.out⟩

/-- Single steps, in the shape `loop_ok` wants. -/
def singleX (enc : Bool) (k : AesArm.AesKey) (h : BitVec 128) (s : AesGcm.St M128) (b : Bytes) : AesGcm.St M128 :=
  let r := single enc k (GhashTable.new h) ⟨s.counter, s.current, s.out⟩ b
  ⟨r.counter, r.current, r.out⟩

theorem foldl_St (f : St → Bytes → St) (g : AesGcm.St M128 → Bytes → AesGcm.St M128)
    (hg : ∀ s b, g s b = ⟨(f ⟨s.counter, s.current, s.out⟩ b).counter, (f ⟨s.counter, s.current, s.out⟩ b).current,
      (f ⟨s.counter, s.current, s.out⟩ b).out⟩) (cs : List Bytes) (c cur : Q) (out : Bytes) :
    cs.foldl f ⟨c, cur, out⟩ = ⟨(cs.foldl g ⟨c, cur, out⟩).counter, (cs.foldl g ⟨c, cur, out⟩).current,
      (cs.foldl g ⟨c, cur, out⟩).out⟩ := by
  induction cs generalizing c cur out with
  | nil => rfl
  | cons b cs ih =>
    rw [List.foldl_cons, List.foldl_cons, hg]
    exact ih _ _ _

theorem single_ok {kx : AesX86.AesKey} {E : Bytes → Bytes} (hE : IsCipher kx E) (k : AesArm.AesKey)
    (hk : ∀ b, k.enc b = kx.enc b) (h : BitVec 128) (enc : Bool)
    (nonce : Bytes) (hn : nonce.length = 12) (n : Nat) (cur : M128) (out b : Bytes) (hb : b.length = 16) :
    single enc k (GhashTable.new h) ⟨reg nonce n, cur, out⟩ b =
      ⟨reg nonce (n + 1),
       Spec.Ghash.absorb h cur (Spec.Ghash.blocksOf (sel enc (Spec.Gcm.gctr E (cb nonce n) (chunks 16 b)) b)),
       out ++ Spec.Gcm.gctr E (cb nonce n) (chunks 16 b)⟩ := by
  have hx : (xb E nonce n b).length = 16 := by rw [xb_length hE nonce hn _ _ (by omega), hb]
  have hg : Spec.Gcm.gctr E (cb nonce n) (chunks 16 b) = xb E nonce n b := by
    have hne : b ≠ [] := by intro hh; rw [hh] at hb; simp at hb
    rw [chunks_cons (by omega) hne, List.take_of_length_le (by omega), List.drop_of_length_le (by omega), chunks_nil,
      Spec.Gcm.gctr, Spec.Gcm.gctr, List.append_nil]
    rfl
  rw [single]
  simp only [next_ok _ _ hn, hk, veorq, vld1q, vst1q]
  rw [BitVec.xor_comm, block_ok hE nonce hn n b hb, store_load _ hx, hg]
  cases enc
  · simp only [sel, Bool.false_eq_true, if_false, addBlock_ok h cur b hb]
  · simp only [sel, if_true, addBlock_ok h cur _ hx]

theorem last_ok {kx : AesX86.AesKey} {E : Bytes → Bytes} (hE : IsCipher kx E) (k : AesArm.AesKey)
    (hk : ∀ b, k.enc b = kx.enc b) (h : BitVec 128) (enc : Bool)
    (nonce : Bytes) (hn : nonce.length = 12) (n : Nat) (cur : M128) (out b : Bytes) (hb : b.length < 16) :
    (last enc k (GhashTable.new h) ⟨reg nonce n, cur, out⟩ b).current =
       Spec.Ghash.absorb h cur (Spec.Ghash.blocksOf (sel enc (Spec.Gcm.gctr E (cb nonce n) (chunks 16 b)) b)) ∧
    (last enc k (GhashTable.new h) ⟨reg nonce n, cur, out⟩ b).out =
       out ++ Spec.Gcm.gctr E (cb nonce n) (chunks 16 b) := by
  rw [last]
  by_cases hne : b = []
  · subst hne
    rw [chunks_nil]
    simp only [List.isEmpty_nil, if_true, Spec.Gcm.gctr, List.append_nil]
    cases enc <;> simp only [sel, Bool.false_eq_true, if_false, if_true] <;> rw [GhashX86.blocksOf_nil] <;>
      exact ⟨rfl, trivial⟩
  · have hg : Spec.Gcm.gctr E (cb nonce n) (chunks 16 b) = xb E nonce n b := by
      rw [chunks_cons (by omega) hne, List.take_of_length_le (by omega), List.drop_of_length_le (by omega), chunks_nil,
        Spec.Gcm.gctr, Spec.Gcm.gctr, List.append_nil]
      rfl
    have hl : (b ++ List.replicate (16 - b.length) 0#8).length = 16 := by
      rw [List.length_append, List.length_replicate]; omega
    have ht : (store (load (b ++ List.replicate (16 - b.length) 0#8) ^^^ kx.enc (load (cb nonce n)))).take b.length =
        xb E nonce n b := by
      rw [BitVec.xor_comm, block_ok hE nonce hn _ _ hl, store_load _ (by rw [xb_length hE nonce hn _ _ (by omega), hl]), xb,
        zipWith_take_pad _ _ (by rw [hE.length _ (cb_length _ _ hn)]; omega)]
      rfl
    rw [if_neg (by simpa using hne)]
    simp only [next_ok _ _ hn, hk, veorq, vld1q, vst1q, ht, hg, GhashArm.add_ok]
    cases enc
    · exact ⟨rfl, trivial⟩
    · exact ⟨rfl, trivial⟩

theorem cipher_ok {kx : AesX86.AesKey} {E : Bytes → Bytes} (hE : IsCipher kx E) (k : AesArm.AesKey)
    (hk : ∀ b, k.enc b = kx.enc b) (h : BitVec 128) (enc : Bool)
    (nonce : Bytes) (hn : nonce.length = 12) (cur : M128) (aad b : Bytes) :
    cipher enc k (GhashTable.new h) cur (cb nonce 1) aad b = result enc E h cur nonce aad b := by
  rw [cipher, first_ok]
  simp only [GhashArm.add_ok]
  have hl := loop_ok 8 (2 + 8 * (chunksExact 128 b).length) (fun n => reg nonce n) hE h enc nonce hn
    (by8X enc k h) (fun n cur out c _ hc => by
      rw [by8X]
      simp only []
      rw [by8_eq k kx hk h enc nonce hn, by8_ok hE h enc nonce hn n cur out c (by omega)]
      rfl)
    (chunksExact 128 b) (fun c hc => by rw [chunksExact_length hc]) 2 (Nat.le_refl _)
    (Spec.Ghash.absorb h cur (Spec.Ghash.blocksOf aad)) []
  rw [foldl_St _ (by8X enc k h) (fun _ _ => rfl), hl]
  simp only []
  have hs := loop_ok 1 (2 + 8 * (chunksExact 128 b).length + 1 * (chunksExact 16 (chunksRem 128 b)).length)
    (fun n => reg nonce n) hE h enc nonce hn
    (singleX enc k h) (fun n cur out c _ hc => by
      rw [singleX]
      simp only []
      rw [single_ok hE k hk h enc nonce hn n cur out c (by omega)])
    (chunksExact 16 (chunksRem 128 b)) (fun c hc => by rw [chunksExact_length hc])
    (2 + 8 * (chunksExact 128 b).length) (Nat.le_refl _)
  rw [foldl_St _ (singleX enc k h) (fun _ _ => rfl), hs]
  simp only []
  obtain ⟨l1, l2⟩ := last_ok hE k hk h enc nonce hn
    (2 + 8 * (chunksExact 128 b).length + 1 * (chunksExact 16 (chunksRem 128 b)).length)
    (Spec.Ghash.absorb h (Spec.Ghash.absorb h (Spec.Ghash.absorb h cur (Spec.Ghash.blocksOf aad))
        (Spec.Ghash.blocksOf (sel enc (Spec.Gcm.gctr E (cb nonce 2) (chunks 16 (chunksExact 128 b).flatten))
          (chunksExact 128 b).flatten)))
      (Spec.Ghash.blocksOf (sel enc (Spec.Gcm.gctr E (cb nonce (2 + 8 * (chunksExact 128 b).length))
        (chunks 16 (chunksExact 16 (chunksRem 128 b)).flatten)) (chunksExact 16 (chunksRem 128 b)).flatten)))
    (([] ++ Spec.Gcm.gctr E (cb nonce 2) (chunks 16 (chunksExact 128 b).flatten)) ++
      Spec.Gcm.gctr E (cb nonce (2 + 8 * (chunksExact 128 b).length))
        (chunks 16 (chunksExact 16 (chunksRem 128 b)).flatten))
    (chunksRem 16 (chunksRem 128 b)) (by rw [chunksRem_length]; exact Nat.mod_lt _ (by omega))
  rw [l1, l2]
  have hfl := flatten_const_length (chunksExact 128 b) 128 (fun c hc => chunksExact_length hc)
  have hfs := flatten_const_length (chunksExact 16 (chunksRem 128 b)) 16 (fun c hc => chunksExact_length hc)
  obtain ⟨f1, f2⟩ := finish_ok hE h enc nonce hn (Spec.Ghash.absorb h cur (Spec.Ghash.blocksOf aad))
    (chunksExact 128 b).flatten (chunksRem 128 b) (8 * (chunksExact 128 b).length) (by omega) 2
  obtain ⟨g1, g2⟩ := finish_ok hE h enc nonce hn
    (Spec.Ghash.absorb h (Spec.Ghash.absorb h cur (Spec.Ghash.blocksOf aad))
        (Spec.Ghash.blocksOf (sel enc (Spec.Gcm.gctr E (cb nonce 2) (chunks 16 (chunksExact 128 b).flatten))
          (chunksExact 128 b).flatten)))
    (chunksExact 16 (chunksRem 128 b)).flatten (chunksRem 16 (chunksRem 128 b))
    (1 * (chunksExact 16 (chunksRem 128 b)).length) (by omega) (2 + 8 * (chunksExact 128 b).length)
  rw [flatten_chunksExact (by omega)] at f1 f2
  rw [flatten_chunksExact (by omega)] at g1 g2
  rw [g1, List.append_assoc, g2, f1, List.nil_append, f2]
  rfl

/-- On aarch64 a key gives the same ciphertexts and tags as on x86_64 without AVX-512. -/
theorem run_eq (key : Bytes) (hk : key.length = 16 ∨ key.length = 32) :
    ∃ g gx, AesGcm.new key = some g ∧ Verif.AesGcm.AesGcm.new false key = some gx ∧
      ∀ enc nonce aad b, nonce.length = 12 → g.run enc nonce aad b = gx.run enc nonce aad b := by
  obtain ⟨k, kx, h1, h2, h3⟩ := AesArm.new_eq key hk
  obtain ⟨kx', h2', hE, hblk⟩ := AesX86.aes_ok key hk
  rw [h2] at h2'
  obtain rfl := Option.some.inj h2'
  have hC : IsCipher kx (Spec.Aes.cipher key) := ⟨hE⟩
  have hb : ∀ b, k.encryptBlock b = kx.encryptBlock b := fun b => by
    rw [AesArm.AesKey.encryptBlock, vld1q, h3]; rfl
  refine ⟨⟨k, GhashTable.new (Ghash.fromBE (kx.encryptBlock (List.replicate 16 0#8)))⟩,
    ⟨kx, GhashX86.Table.new false (Ghash.fromBE (kx.encryptBlock (List.replicate 16 0#8)))⟩, ?_, ?_, ?_⟩
  · rw [AesGcm.new, h1]
    simp only [Option.bind_eq_bind, Option.bind_some]
    rw [hb]; rfl
  · rw [Verif.AesGcm.AesGcm.new, h2]; rfl
  · intro enc nonce aad b hn
    rw [AesGcm.run, Verif.AesGcm.AesGcm.run]
    simp only []
    rw [show nonceToY0 nonce = cb nonce 1 from rfl, show Verif.AesGcm.nonceToY0 nonce = cb nonce 1 from rfl,
      cipher_ok hC k h3 _ enc nonce hn, lowCipher_ok hC false _ enc nonce hn _ _ _ (by simp), result]
    simp only [GhashArm.add_ok, GhashX86.add_ok, hb, GhashX86.intoBytes_ok]
    rfl

end Verif.AesGcmArm
