import Verif.Proof.GhashAll

/-!
`Ghash::add` of both back ends absorbs the blocks of its argument.
-/
namespace Verif.GhashX86
open Verif Verif.Simd

theorem blocksOf_nil : Spec.Ghash.blocksOf [] = [] := by rw [Spec.Ghash.blocksOf, chunks_nil]; rfl

theorem blocksOf_cons (c : Bytes) (h : 16 ≤ c.length) :
    Spec.Ghash.blocksOf c = Ghash.fromBE (c.take 16) :: Spec.Ghash.blocksOf (c.drop 16) := by
  have hl : (c.take 16).length = 16 := by rw [List.length_take]; omega
  rw [Spec.Ghash.blocksOf, chunks_cons (by omega) (by intro e; rw [e] at h; simp at h), List.map_cons, hl]
  simp only [Nat.sub_self, List.replicate_zero, List.append_nil]
  rfl

theorem blocksOf_append (a b : Bytes) (h : 16 ∣ a.length) :
    Spec.Ghash.blocksOf (a ++ b) = Spec.Ghash.blocksOf a ++ Spec.Ghash.blocksOf b := by
  rw [Spec.Ghash.blocksOf, chunks_append (by omega) h, List.map_append]; rfl

theorem absorb_append (h c : BitVec 128) (a b : List (BitVec 128)) :
    Spec.Ghash.absorb h c (a ++ b) = Spec.Ghash.absorb h (Spec.Ghash.absorb h c a) b := by
  rw [Spec.Ghash.absorb, List.foldl_append]

theorem absorb_zero (h c x : BitVec 128) (xs : List (BitVec 128)) :
    Spec.Ghash.absorb h 0#128 ((c ^^^ x) :: xs) = Spec.Ghash.absorb h c (x :: xs) := by
  rw [Spec.Ghash.absorb, List.foldl_cons, List.foldl_cons, BitVec.zero_xor]

theorem blocksOf8 (c : Bytes) (h : c.length = 128) : Spec.Ghash.blocksOf c =
    [blockAt c 0, blockAt c 16, blockAt c 32, blockAt c 48, blockAt c 64, blockAt c 80, blockAt c 96,
      blockAt c 112] := by
  rw [blocksOf_cons _ (by omega)]
  iterate 7 rw [blocksOf_cons _ (by rw [List.length_drop]; omega), List.drop_drop]
  rw [show Spec.Ghash.blocksOf (List.drop (16 + 16 + 16 + 16 + 16 + 16 + 16 + 16) c) = [] by
    rw [List.drop_of_length_le (by omega), blocksOf_nil]]
  rfl

theorem blocksOf16 (c : Bytes) (h : c.length = 256) : Spec.Ghash.blocksOf c =
    [blockAt c 0, blockAt c 16, blockAt c 32, blockAt c 48, blockAt c 64, blockAt c 80, blockAt c 96,
      blockAt c 112, blockAt c 128, blockAt c 144, blockAt c 160, blockAt c 176, blockAt c 192,
      blockAt c 208, blockAt c 224, blockAt c 240] := by
  rw [blocksOf_cons _ (by omega)]
  iterate 15 rw [blocksOf_cons _ (by rw [List.length_drop]; omega), List.drop_drop]
  rw [show Spec.Ghash.blocksOf (List.drop (16 + 16 + 16 + 16 + 16 + 16 + 16 + 16 + 16 + 16 + 16 + 16 +
    16 + 16 + 16 + 16) c) = [] by rw [List.drop_of_length_le (by omega), blocksOf_nil]]
  rfl

theorem wide8_ok (h cur : BitVec 128) (c : Bytes) (hc : c.length = 128) :
    wide8 (TableAvx.new h) cur c = Spec.Ghash.absorb h cur (Spec.Ghash.blocksOf c) := by
  rw [wide8, mul8_ok, absorb_zero, blocksOf8 c hc]

/-- A mask that swaps the bytes within each lane. -/
def IsSwap (m : M512) : Prop := ∀ v, shuffle8_512 v m = lanes1 (fun x => shuffle8 x BYTESWAP) v

theorem isSwap_broadcast : IsSwap (broadcast BYTESWAP) := fun _ => rfl

theorem absorb16_ok (m : M512) (hm : IsSwap m) (h cur : BitVec 128) (a b c d : M512) :
    absorb16 m (TableAvx512.new h) cur a b c d = Spec.Ghash.absorb h cur
      ([a.l0, a.l1, a.l2, a.l3, b.l0, b.l1, b.l2, b.l3, c.l0, c.l1, c.l2, c.l3, d.l0, d.l1, d.l2, d.l3].map
        fun x => shuffle8 x BYTESWAP) := by
  rw [absorb16]
  simp only [hm _, lanes1, xor512, lanes2]
  rw [mul16_ok]
  simp only [BitVec.xor_zero]
  rw [BitVec.xor_comm, absorb_zero]
  rfl

theorem load_lane (c : Bytes) (k i : Nat) (hk : k + 64 ≤ c.length) (hi : i + 16 ≤ 64) :
    shuffle8 (load ((((c.drop k).take 64).drop i).take 16)) BYTESWAP = blockAt c (k + i) := by
  rw [List.drop_take, List.take_take, List.drop_drop, Nat.min_eq_left (by omega),
    bswap_load _ (by rw [List.length_take, List.length_drop]; omega)]
  rfl

theorem lanes_blocks (c : Bytes) (hc : c.length = 256) :
    ([(load512 (c.take 64)).l0, (load512 (c.take 64)).l1, (load512 (c.take 64)).l2, (load512 (c.take 64)).l3,
      (load512 ((c.drop 64).take 64)).l0, (load512 ((c.drop 64).take 64)).l1,
      (load512 ((c.drop 64).take 64)).l2, (load512 ((c.drop 64).take 64)).l3,
      (load512 ((c.drop 128).take 64)).l0, (load512 ((c.drop 128).take 64)).l1,
      (load512 ((c.drop 128).take 64)).l2, (load512 ((c.drop 128).take 64)).l3,
      (load512 ((c.drop 192).take 64)).l0, (load512 ((c.drop 192).take 64)).l1,
      (load512 ((c.drop 192).take 64)).l2, (load512 ((c.drop 192).take 64)).l3].map
        fun x => shuffle8 x BYTESWAP) = Spec.Ghash.blocksOf c := by
  rw [blocksOf16 c hc]
  have e := fun k i h h' => load_lane c k i h h'
  have e0 := e 0 0 (by omega) (by omega)
  have e1 := e 0 16 (by omega) (by omega)
  have e2 := e 0 32 (by omega) (by omega)
  have e3 := e 0 48 (by omega) (by omega)
  rw [List.drop_zero] at e0 e1 e2 e3
  rw [List.drop_zero] at e0
  have f0 := e 64 0 (by omega) (by omega)
  have f1 := e 128 0 (by omega) (by omega)
  have f2 := e 192 0 (by omega) (by omega)
  rw [List.drop_zero] at f0 f1 f2
  simp only [load512, List.map_cons, List.map_nil]
  rw [e0, e1, e2, e3, f0, e 64 16 (by omega) (by omega), e 64 32 (by omega) (by omega),
    e 64 48 (by omega) (by omega), f1, e 128 16 (by omega) (by omega), e 128 32 (by omega) (by omega),
    e 128 48 (by omega) (by omega), f2, e 192 16 (by omega) (by omega), e 192 32 (by omega) (by omega),
    e 192 48 (by omega) (by omega)]

theorem wide16_ok (h cur : BitVec 128) (c : Bytes) (hc : c.length = 256) :
    wide16 (TableAvx512.new h) cur c = Spec.Ghash.absorb h cur (Spec.Ghash.blocksOf c) := by
  rw [wide16, absorb16_ok _ isSwap_broadcast, lanes_blocks c hc]

theorem fold_wide (n : Nat) (hn : 16 ∣ n) (h : BitVec 128) (f : M128 → Bytes → M128)
    (hf : ∀ cur c, c.length = n → f cur c = Spec.Ghash.absorb h cur (Spec.Ghash.blocksOf c))
    (cs : List Bytes) (hcs : ∀ c ∈ cs, c.length = n) (cur : M128) (r : Bytes) :
    Spec.Ghash.absorb h cur (Spec.Ghash.blocksOf (cs.flatten ++ r)) =
      Spec.Ghash.absorb h (cs.foldl f cur) (Spec.Ghash.blocksOf r) := by
  induction cs generalizing cur with
  | nil => rfl
  | cons c cs ih =>
    have hc := hcs c (by simp)
    rw [List.flatten_cons, List.append_assoc, blocksOf_append _ _ (by rw [hc]; exact hn), absorb_append,
      ← hf cur c hc, ih (fun c' h' => hcs c' (by simp [h'])), List.foldl_cons]

theorem absorb_wide (n : Nat) (h0 : 0 < n) (hn : 16 ∣ n) (h : BitVec 128) (f : M128 → Bytes → M128)
    (hf : ∀ cur c, c.length = n → f cur c = Spec.Ghash.absorb h cur (Spec.Ghash.blocksOf c))
    (cur : M128) (b : Bytes) :
    Spec.Ghash.absorb h cur (Spec.Ghash.blocksOf b) =
      Spec.Ghash.absorb h ((chunksExact n b).foldl f cur) (Spec.Ghash.blocksOf (chunksRem n b)) := by
  rw [← fold_wide n hn h f hf _ (fun c hc => chunksExact_length hc), flatten_chunksExact h0]

/-- The tail of `add`, for any single-block step. -/
theorem tail_ok (h : BitVec 128) (one : M128 → M128 → M128)
    (h1 : ∀ cur x, one cur x = Spec.Ghash.mul (cur ^^^ x) h) (cur : M128) (b : Bytes) :
    (if (chunksRem 16 b).isEmpty then (chunksExact 16 b).foldl (fun c x => one c (Ghash.fromBE x)) cur
      else one ((chunksExact 16 b).foldl (fun c x => one c (Ghash.fromBE x)) cur)
        (Ghash.fromBE (Ghash.padBlock (chunksRem 16 b)))) =
    Spec.Ghash.absorb h cur (Spec.Ghash.blocksOf b) := by
  rw [absorb_wide 16 (by omega) (Nat.dvd_refl _) h (fun c x => one c (Ghash.fromBE x))
    (fun cur c hc => by
      rw [h1, blocksOf_cons c (by omega), List.take_of_length_le (by omega),
        List.drop_of_length_le (by omega), blocksOf_nil]; rfl)]
  have hrem : (chunksRem 16 b).length < 16 := by rw [chunksRem_length]; exact Nat.mod_lt _ (by omega)
  cases hr : chunksRem 16 b with
  | nil => rw [blocksOf_nil]; rfl
  | cons x xs =>
    rw [hr] at hrem
    rw [if_neg (by simp), h1, Spec.Ghash.blocksOf, chunks_cons (by omega) (by simp),
      List.take_of_length_le (by omega), List.drop_of_length_le (by omega), chunks_nil]
    rfl

theorem add_ok (w : Bool) (h cur : BitVec 128) (b : Bytes) :
    add (Table.new w h) cur b = Spec.Ghash.absorb h cur (Spec.Ghash.blocksOf b) := by
  cases w with
  | false =>
    show add (.avx (TableAvx.new h)) cur b = _
    rw [add, addWide]
    simp only []
    rw [tail_ok h (oneBlock (.avx (TableAvx.new h))) (fun cur x => mul_h _ h rfl _)]
    rw [absorb_wide 128 (by omega) (by decide) h (wide8 (TableAvx.new h)) (wide8_ok h) cur b]
  | true =>
    show add (.avx512 (TableAvx512.new h)) cur b = _
    rw [add, addWide]
    simp only []
    rw [tail_ok h (oneBlock (.avx512 (TableAvx512.new h))) (fun cur x => mul_h _ h rfl _)]
    rw [absorb_wide 256 (by omega) (by decide) h (wide16 (TableAvx512.new h)) (wide16_ok h) cur b]

theorem generic_add_ok (h cur : BitVec 128) (b : Bytes) :
    Ghash.add h cur b = Spec.Ghash.absorb h cur (Spec.Ghash.blocksOf b) := by
  rw [Ghash.add]
  exact tail_ok h (Ghash.oneBlock h) (fun cur x => by
    rw [Ghash.oneBlock, generic_mul, spec_mul_comm]) cur b

end Verif.GhashX86
