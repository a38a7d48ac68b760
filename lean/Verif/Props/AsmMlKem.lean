import Verif.Proof.X86.MlKemNtt
import Verif.Proof.MlKemX86Bytes
import Verif.Props.AsmX86

/-!
C64: the AVX2 machine code for ML-KEM.  `Asm.mlkemNtt` and so on are the `asm!` blocks of `low/x86_64/mlkem_*.rs`.  Arrays of `i16` are 32-byte
aligned, four to a word; `X86.qdata` is the table `Q_DATA`.  Each theorem says what the code leaves in terms of FIPS 203, and `_exact` ones say
which number each `i16` becomes, on any input.  `C64_contract_partial` joins them: the routines are what the theorems about ML-KEM (C41 to C46) assume.
-/
namespace Verif.Props
open Verif Verif.X86 Verif.MlKem Verif.MlKem.X86 Verif.Spec.MlKem

/-! ### What the code computes, exactly -/

theorem C64_ntt_exact (t : VSt) (a : Coeffs) (ha : a.length = 256)
    (hr : Ready t.s [ioBlock t.s.rdi (words16 a), inBlock t.s.rsi (words16 qdata)]) (hal : Aligned32 t.s.rdi ∧ Aligned32 t.s.rsi) :
    VRuns Asm.mlkemNtt t (Ends t [ioBlock t.s.rdi (words16 a), inBlock t.s.rsi (words16 qdata)] t.s.rdi (words16 (X86.ntt a))) :=
  L16.ntt_run ha hr hal

theorem C64_intt_exact (t : VSt) (a : Coeffs) (ha : a.length = 256)
    (hr : Ready t.s [ioBlock t.s.rdi (words16 a), inBlock t.s.rsi (words16 qdata)]) (hal : Aligned32 t.s.rdi ∧ Aligned32 t.s.rsi) :
    VRuns Asm.mlkemIntt t (Ends t [ioBlock t.s.rdi (words16 a), inBlock t.s.rsi (words16 qdata)] t.s.rdi (words16 (X86.intt a))) :=
  L16.intt_run ha hr hal

theorem C64_mulcache_exact (t : VSt) (a : Coeffs) (ha : a.length = 256)
    (hr : Ready t.s [outBlock t.s.rdi 32, inBlock t.s.rsi (words16 a), inBlock t.s.rdx (words16 qdata)])
    (hal : Aligned32 t.s.rdi ∧ Aligned32 t.s.rsi ∧ Aligned32 t.s.rdx) :
    VRuns Asm.mlkemMulcacheCompute t (Ends t [outBlock t.s.rdi 32, inBlock t.s.rsi (words16 a), inBlock t.s.rdx (words16 qdata)] t.s.rdi
      (words16 (mulcache a))) :=
  L16.mulcache_run ha hr hal

theorem C64_basemul_exact (t : VSt) (a b c : List Coeffs) (ha : a.length = 3 ∧ ∀ x ∈ a, x.length = 256)
    (hb : b.length = 3 ∧ ∀ x ∈ b, x.length = 256) (hc : c.length = 3 ∧ ∀ x ∈ c, x.length = 128)
    (hr : Ready t.s [outBlock t.s.rdi 64, inBlock t.s.rsi (words16 a.flatten), inBlock t.s.rdx (words16 b.flatten),
      inBlock t.s.rcx (words16 c.flatten)])
    (hal : Aligned32 t.s.rdi ∧ Aligned32 t.s.rsi ∧ Aligned32 t.s.rdx ∧ Aligned32 t.s.rcx) :
    VRuns Asm.mlkemBasemulK3 t (Ends t [outBlock t.s.rdi 64, inBlock t.s.rsi (words16 a.flatten), inBlock t.s.rdx (words16 b.flatten),
      inBlock t.s.rcx (words16 c.flatten)] t.s.rdi (words16 (basemul a b c))) :=
  L16.basemul_run ha hb hc hr hal

/-! ### Against FIPS 203 -/

/-- The order in which the transformed coefficients stand: slot `128 h + 16 r + c` (`r < 8`, `c < 16`) holds coefficient `128 h + 8 c + r`. -/
theorem C64_order (h r c : Nat) (hh : h < 2) (hr : r < 8) (hc : c < 16) (hm : 128 * h + 16 * r + c < 256) :
    (sigma ⟨128 * h + 16 * r + c, hm⟩).val = 128 * h + 8 * c + r := by
  show place (128 * h + 16 * r + c) = _
  unfold place
  omega

/-- The forward transform of coefficients below `q` in absolute value is that of FIPS 203, in the order `sigma` and below `8 q`. -/
theorem C64_ntt (t : VSt) (a : Coeffs) (ha : Bnd 3329 a)
    (hr : Ready t.s [ioBlock t.s.rdi (words16 a), inBlock t.s.rsi (words16 qdata)]) (hal : Aligned32 t.s.rdi ∧ Aligned32 t.s.rsi) :
    ∃ c : Coeffs, Bnd 26632 c ∧ toPoly c = lay sigma (Spec.MlKem.ntt (toPoly a)) ∧
      VRuns Asm.mlkemNtt t (Ends t [ioBlock t.s.rdi (words16 a), inBlock t.s.rsi (words16 qdata)] t.s.rdi (words16 c)) :=
  ⟨_, (ntt_ok a ha).1, (ntt_ok a ha).2, C64_ntt_exact t a ha.1 hr hal⟩

/-- The inverse transform of any `i16`s in the order `sigma` is that of FIPS 203 times `2^16`, below `8 q`. -/
theorem C64_intt (t : VSt) (a : Coeffs) (g : Poly) (ha : I16 a) (hg : toPoly a = lay sigma g)
    (hr : Ready t.s [ioBlock t.s.rdi (words16 a), inBlock t.s.rsi (words16 qdata)]) (hal : Aligned32 t.s.rdi ∧ Aligned32 t.s.rsi) :
    ∃ c : Coeffs, Bnd 26632 c ∧ toPoly c = (fun i => 2 ^ 16 * Spec.MlKem.intt g i) ∧
      VRuns Asm.mlkemIntt t (Ends t [ioBlock t.s.rdi (words16 a), inBlock t.s.rsi (words16 qdata)] t.s.rdi (words16 c)) :=
  ⟨_, (intt_ok a g ha hg).1, (intt_ok a g ha hg).2, C64_intt_exact t a ha.1 hr hal⟩

/-- Each `i16` is replaced by its residue in `[0, q)`. -/
theorem C64_reduce (t : VSt) (a : Coeffs) (ha : I16 a) (hr : Ready t.s [ioBlock t.s.rdi (words16 a)]) (hal : Aligned32 t.s.rdi) :
    VRuns Asm.mlkemReduce t (Ends t [ioBlock t.s.rdi (words16 a)] t.s.rdi (words16 (a.map (· % 3329)))) := by
  have e : X86.reduce a = a.map (· % 3329) := by
    refine uns_ext (reduce_ok a ha).1 ⟨by rw [List.length_map, ha.1], fun x hx => ?_⟩ ((reduce_ok a ha).2.trans ?_)
    · obtain ⟨y, _, rfl⟩ := List.mem_map.1 hx
      show 0 ≤ y % 3329 ∧ y % 3329 < 3329
      omega
    · funext i
      unfold toPoly
      have hi : i.val < a.length := by rw [ha.1]; exact i.isLt
      rw [List.getD_eq_getElem?_getD, List.getD_eq_getElem?_getD, List.getElem?_map, List.getElem?_eq_getElem hi]
      exact cast_dvd (by show (a[i.val] - a[i.val] % 3329) % 3329 = 0; omega)
  rw [← e]
  exact L16.reduce_run ha.1 hr hal

/-- Each `i16` is multiplied by `2^16` modulo `q`; the results are below `q` in absolute value. -/
theorem C64_tomont (t : VSt) (a : Coeffs) (ha : I16 a) (hr : Ready t.s [ioBlock t.s.rdi (words16 a)]) (hal : Aligned32 t.s.rdi) :
    ∃ c : Coeffs, Bnd 3329 c ∧ toPoly c = (fun i => 2 ^ 16 * toPoly a i) ∧
      VRuns Asm.mlkemTomont t (Ends t [ioBlock t.s.rdi (words16 a)] t.s.rdi (words16 c)) :=
  ⟨_, (tomont_ok a ha).1, (tomont_ok a ha).2, L16.tomont_run ha.1 hr hal⟩

/-- The inner product of three pairs of transformed polynomials, times `2^-16`, from the caches that `mlkem_mulcache_compute` leaves. -/
theorem C64_basemul (t : VSt) (a b : Fin 3 → Coeffs) (f g : Vec) (ha : ∀ k, Uns 4096 (a k)) (hb : ∀ k, I16 (b k))
    (ea : ∀ k, toPoly (a k) = lay sigma (f k)) (eb : ∀ k, toPoly (b k) = lay sigma (g k))
    (hr : Ready t.s [outBlock t.s.rdi 64, inBlock t.s.rsi (words16 (a 0 ++ a 1 ++ a 2)), inBlock t.s.rdx (words16 (b 0 ++ b 1 ++ b 2)),
      inBlock t.s.rcx (words16 (mulcache (b 0) ++ mulcache (b 1) ++ mulcache (b 2)))])
    (hal : Aligned32 t.s.rdi ∧ Aligned32 t.s.rsi ∧ Aligned32 t.s.rdx ∧ Aligned32 t.s.rcx) :
    ∃ c : Coeffs, I16 c ∧ (fun i => 2 ^ 16 * toPoly c i) = lay sigma (dot f g) ∧
      VRuns Asm.mlkemBasemulK3 t (Ends t [outBlock t.s.rdi 64, inBlock t.s.rsi (words16 (a 0 ++ a 1 ++ a 2)),
        inBlock t.s.rdx (words16 (b 0 ++ b 1 ++ b 2)), inBlock t.s.rcx (words16 (mulcache (b 0) ++ mulcache (b 1) ++ mulcache (b 2)))]
        t.s.rdi (words16 c)) := by
  have fl : ∀ x y z : Coeffs, x ++ y ++ z = [x, y, z].flatten := fun x y z => by simp
  have hm := basemul_ok (a 0) (a 1) (a 2) (b 0) (b 1) (b 2) f g (ha 0) (ha 1) (ha 2) (hb 0) (hb 1) (hb 2) (ea 0) (ea 1) (ea 2) (eb 0) (eb 1) (eb 2)
  refine ⟨_, hm.1, hm.2, ?_⟩
  rw [fl, fl, fl] at hr ⊢
  exact C64_basemul_exact t _ _ _ ⟨rfl, by simp [(ha 0).1, (ha 1).1, (ha 2).1]⟩ ⟨rfl, by simp [(hb 0).1, (hb 1).1, (hb 2).1]⟩
    ⟨rfl, by simp [mulcache, arr_length]⟩ hr hal

/-- Coefficients in natural order are put into the order `sigma`. -/
theorem C64_unpack (t : VSt) (l : List Nat) (hl : l.length = 256) (h : ∀ x ∈ l, x < 4096)
    (hr : Ready t.s [ioBlock t.s.rdi (words16 (ints l))]) (hal : Aligned32 t.s.rdi) :
    VRuns Asm.mlkemUnpack t (Ends t [ioBlock t.s.rdi (words16 (ints l))] t.s.rdi (words16 (layL sigma l))) := by
  rw [← unpack_ok l hl h]
  exact L16.unpack_run (by rw [ints_length, hl]) hr hal

/-- Coefficients in the order `sigma` are written as `ByteEncode_12`. -/
theorem C64_tobytes (t : VSt) (l : List Nat) (hl : l.length = 256) (h : ∀ x ∈ l, x < 4096)
    (hr : Ready t.s [outBlock t.s.rdi 48, inBlock t.s.rsi (words16 (layL sigma l))]) (hal : Aligned32 t.s.rsi) :
    VRuns Asm.mlkemTobytes t (Ends t [outBlock t.s.rdi 48, inBlock t.s.rsi (words16 (layL sigma l))] t.s.rdi (words8 (byteEncode 12 l))) := by
  rw [← tobytes_ok l hl h]
  exact L16.tobytes_run List.length_ofFn hr hal

/-- 384 bytes are read as 256 numbers of 12 bits, into the order `sigma`. -/
theorem C64_frombytes (t : VSt) (B : Bytes) (hB : B.length = 384)
    (hr : Ready t.s [outBlock t.s.rdi 64, inBlock t.s.rsi (words8 B)]) (hal : Aligned32 t.s.rdi) :
    VRuns Asm.mlkemFrombytes t (Ends t [outBlock t.s.rdi 64, inBlock t.s.rsi (words8 B)] t.s.rdi
      (words16 (layL sigma ((List.range 256).map fun i => leNat B / 2 ^ (12 * i) % 2 ^ 12)))) := by
  rw [← rawDecode_group 12 (by decide) 256 B (by rw [hB]), ← frombytes_ok B hB]
  exact L16.frombytes_run hB hr hal

/-- The nine routines, with any correct `mlkem_rej_uniform_vartime`, are what the theorems about ML-KEM assume of the assembly. -/
theorem C64_contract_partial (rej : Bytes → Coeffs) (h : ∀ B : Bytes, B.length = 504 → rej B = ints ((accepted B).take 256)) :
    Contract (x86Asm rej) sigma := x86_contract rej h

/-! ### States in which the hypotheses hold -/

/-- The address of the array of number `k`. -/
def mkAt (k : Nat) : Word := BitVec.ofNat 64 (0x4000 * (k + 1))

/-- Up to four arrays, of which the first may be written. -/
def mkSt (L : List Words) : VSt :=
  { s := { wSt with
      rdi := mkAt 0, rsi := mkAt 1, rdx := mkAt 2, rcx := mkAt 3, wr := fun a => a.toNat < 0x8000
      mem := fun a => (L.getD (a.toNat / 0x4000 - 1) [])[a.toNat % 0x4000 / 8]? }
    y := fun r => ⟨BitVec.ofNat 64 r, 1#64, 2#64, 3#64⟩ }

theorem mk_word {k i : Nat} (hk : k < 4) (hi : i < 2048) : (word (mkAt k) i).toNat = 0x4000 * (k + 1) + 8 * i := by
  unfold word mkAt
  rw [BitVec.toNat_add, BitVec.toNat_mul, BitVec.toNat_ofNat, BitVec.toNat_ofNat, BitVec.toNat_ofNat]
  omega

theorem mk_ready {L : List Words} {bs : List Block} (hl : bs.length ≤ 4)
    (hb : ∀ k (h : k < bs.length), bs[k].at' = mkAt k ∧ bs[k].len ≤ 2048 ∧ (bs[k].wr = true → k = 0) ∧
      ∀ ws, bs[k].holds = some ws → ws = L.getD k [] ∧ ws.length = bs[k].len) : Ready (mkSt L).s bs := by
  refine ⟨fun b hm => ?_, List.pairwise_iff_getElem.2 fun i j hi hj hij _ p hp q hq e => ?_⟩
  · obtain ⟨k, hk, rfl⟩ := List.mem_iff_getElem.1 hm
    obtain ⟨h1, h2, h3, h4⟩ := hb k hk
    refine ⟨fun hw i hi => ?_, fun ws hw => (h4 ws hw).2, fun ws hw i hi => ?_⟩
    · rw [h1]
      have hk0 := h3 hw
      subst hk0
      show decide ((word (mkAt 0) i).toNat < 0x8000) = true
      rw [mk_word (by omega) (by omega)]
      exact decide_eq_true (by omega)
    · obtain ⟨e1, e2⟩ := h4 ws hw
      rw [h1]
      show (L.getD ((word (mkAt k) i).toNat / 0x4000 - 1) [])[(word (mkAt k) i).toNat % 0x4000 / 8]? = _
      rw [mk_word (by omega) (by omega), show (0x4000 * (k + 1) + 8 * i) / 0x4000 - 1 = k by omega,
        show (0x4000 * (k + 1) + 8 * i) % 0x4000 / 8 = i by omega, ← e1, List.getElem?_eq_getElem hi]
  · obtain ⟨h1, h2, _⟩ := hb i hi
    obtain ⟨g1, g2, _⟩ := hb j hj
    rw [h1, g1] at e
    have := congrArg BitVec.toNat e
    rw [mk_word (by omega) (by omega), mk_word (by omega) (by omega)] at this
    omega

/-- The coefficients 0, 13, 26, … modulo `q`. -/
def mkL (n : Nat) : List Nat := (List.range 256).map fun i => (i * 13 + n) % 3329
/-- Some of both signs. -/
def mkA : Coeffs := (List.range 256).map fun i : Nat => (i : Int) * 26 - 3328

theorem mkL_lt (n : Nat) : (mkL n).length = 256 ∧ ∀ x ∈ mkL n, x < 4096 :=
  ⟨by unfold mkL; rw [List.length_map, List.length_range], fun x hx => by
    unfold mkL at hx
    obtain ⟨i, _, rfl⟩ := List.mem_map.1 hx
    show (i * 13 + n) % 3329 < 4096
    omega⟩

theorem mkA_bnd : Bnd 3329 mkA :=
  ⟨by unfold mkA; rw [List.length_map, List.length_range], fun x hx => by
    unfold mkA at hx
    obtain ⟨i, hi, rfl⟩ := List.mem_map.1 hx
    rw [List.mem_range] at hi
    show -3329 < (i : Int) * 26 - 3328 ∧ (i : Int) * 26 - 3328 < 3329
    omega⟩

theorem w16_len {a : Coeffs} {n : Nat} (h : a.length = 4 * n) (hn : n ≤ 2048) : (words16 a).length ≤ 2048 := by
  rw [L16.words16_eq h, L16.laneWords_length]
  exact hn

theorem mk_io {A : Words} (h : A.length ≤ 2048) : Ready (mkSt [A]).s [ioBlock (mkSt [A]).s.rdi A] :=
  mk_ready (by show _ + 1 ≤ 4; exact Nat.le_of_ble_eq_true rfl) fun k hk => by
    have : k < 1 := hk
    interval_cases k
    exact ⟨rfl, h, fun _ => rfl, fun ws e => ⟨(Option.some.inj e).symm, congrArg _ (Option.some.inj e).symm⟩⟩

theorem mk_io_in {A B : Words} (h : A.length ≤ 2048) (h' : B.length ≤ 2048) :
    Ready (mkSt [A, B]).s [ioBlock (mkSt [A, B]).s.rdi A, inBlock (mkSt [A, B]).s.rsi B] :=
  mk_ready (by show _ + 1 ≤ 4; exact Nat.le_of_ble_eq_true rfl) fun k hk => by
    have : k < 2 := hk
    interval_cases k
    · exact ⟨rfl, h, fun _ => rfl, fun ws e => ⟨(Option.some.inj e).symm, congrArg _ (Option.some.inj e).symm⟩⟩
    · exact ⟨rfl, h', fun e => Bool.noConfusion e, fun ws e => ⟨(Option.some.inj e).symm, congrArg _ (Option.some.inj e).symm⟩⟩

theorem mk_out_in {n : Nat} {B : Words} (h : n ≤ 2048) (h' : B.length ≤ 2048) :
    Ready (mkSt [[], B]).s [outBlock (mkSt [[], B]).s.rdi n, inBlock (mkSt [[], B]).s.rsi B] :=
  mk_ready (by show _ + 1 ≤ 4; exact Nat.le_of_ble_eq_true rfl) fun k hk => by
    have : k < 2 := hk
    interval_cases k
    · exact ⟨rfl, h, fun _ => rfl, fun ws e => by cases e⟩
    · exact ⟨rfl, h', fun e => Bool.noConfusion e, fun ws e => ⟨(Option.some.inj e).symm, congrArg _ (Option.some.inj e).symm⟩⟩

theorem mk_out_in2 {n : Nat} {B C : Words} (h : n ≤ 2048) (h' : B.length ≤ 2048) (h'' : C.length ≤ 2048) :
    Ready (mkSt [[], B, C]).s [outBlock (mkSt [[], B, C]).s.rdi n, inBlock (mkSt [[], B, C]).s.rsi B, inBlock (mkSt [[], B, C]).s.rdx C] :=
  mk_ready (by show _ + 1 ≤ 4; exact Nat.le_of_ble_eq_true rfl) fun k hk => by
    have : k < 3 := hk
    interval_cases k
    · exact ⟨rfl, h, fun _ => rfl, fun ws e => by cases e⟩
    · exact ⟨rfl, h', fun e => Bool.noConfusion e, fun ws e => ⟨(Option.some.inj e).symm, congrArg _ (Option.some.inj e).symm⟩⟩
    · exact ⟨rfl, h'', fun e => Bool.noConfusion e, fun ws e => ⟨(Option.some.inj e).symm, congrArg _ (Option.some.inj e).symm⟩⟩

theorem mk_out_in3 {n : Nat} {B C D : Words} (h : n ≤ 2048) (h' : B.length ≤ 2048) (h'' : C.length ≤ 2048) (h3 : D.length ≤ 2048) :
    Ready (mkSt [[], B, C, D]).s [outBlock (mkSt [[], B, C, D]).s.rdi n, inBlock (mkSt [[], B, C, D]).s.rsi B,
      inBlock (mkSt [[], B, C, D]).s.rdx C, inBlock (mkSt [[], B, C, D]).s.rcx D] :=
  mk_ready (by show _ + 1 ≤ 4; exact Nat.le_of_ble_eq_true rfl) fun k hk => by
    have : k < 4 := hk
    interval_cases k
    · exact ⟨rfl, h, fun _ => rfl, fun ws e => by cases e⟩
    · exact ⟨rfl, h', fun e => Bool.noConfusion e, fun ws e => ⟨(Option.some.inj e).symm, congrArg _ (Option.some.inj e).symm⟩⟩
    · exact ⟨rfl, h'', fun e => Bool.noConfusion e, fun ws e => ⟨(Option.some.inj e).symm, congrArg _ (Option.some.inj e).symm⟩⟩
    · exact ⟨rfl, h3, fun e => Bool.noConfusion e, fun ws e => ⟨(Option.some.inj e).symm, congrArg _ (Option.some.inj e).symm⟩⟩

theorem mk_al (L : List Words) : Aligned32 (mkSt L).s.rdi ∧ Aligned32 (mkSt L).s.rsi ∧ Aligned32 (mkSt L).s.rdx ∧ Aligned32 (mkSt L).s.rcx := by
  have h : ∀ k < 4, Aligned32 (mkAt k) := by unfold Aligned32; decide
  exact ⟨h 0 (by omega), h 1 (by omega), h 2 (by omega), h 3 (by omega)⟩

theorem mkA_i16 : I16 mkA := ⟨mkA_bnd.1, fun x hx => by have := mkA_bnd.2 x hx; omega⟩

theorem mkQ : (words16 qdata).length ≤ 2048 := w16_len (n := 156) (by decide +kernel) (by omega)

/-- Lanes are little-endian, and negative numbers in two's complement. -/
example : words16 [1, -1, 2, 0x1234] = [0x12340002ffff0001#64] ∧
    words8 [1#8, 2#8, 3#8, 4#8, 5#8, 6#8, 7#8, 8#8] = [0x0807060504030201#64] := by decide +kernel

example := C64_ntt (mkSt [words16 mkA, words16 qdata]) mkA mkA_bnd (mk_io_in (w16_len (n := 64) mkA_bnd.1 (by omega)) mkQ)
  ⟨(mk_al _).1, (mk_al _).2.1⟩
example := C64_reduce (mkSt [words16 mkA]) mkA mkA_i16 (mk_io (w16_len (n := 64) mkA_bnd.1 (by omega))) (mk_al _).1
example := C64_tomont (mkSt [words16 mkA]) mkA mkA_i16 (mk_io (w16_len (n := 64) mkA_bnd.1 (by omega))) (mk_al _).1
example := C64_unpack (mkSt [words16 (ints (mkL 5))]) (mkL 5) (mkL_lt 5).1 (mkL_lt 5).2
  (mk_io (w16_len (n := 64) (by rw [ints_length, (mkL_lt 5).1]) (by omega))) (mk_al _).1
example := C64_mulcache_exact (mkSt [[], words16 mkA, words16 qdata]) mkA mkA_bnd.1
  (mk_out_in2 (by omega) (w16_len (n := 64) mkA_bnd.1 (by omega)) mkQ) ⟨(mk_al _).1, (mk_al _).2.1, (mk_al _).2.2.1⟩
example := C64_tobytes (mkSt [[], words16 (layL sigma (mkL 5))]) (mkL 5) (mkL_lt 5).1 (mkL_lt 5).2
  (mk_out_in (by omega) (w16_len (n := 64) List.length_ofFn (by omega))) (mk_al _).2.1

/-- Some bytes. -/
def mkB : Bytes := (List.range 384).map fun i => BitVec.ofNat 8 (i * 37)

theorem mkB_len : mkB.length = 384 := by
  unfold mkB
  rw [List.length_map, List.length_range]

example := C64_frombytes (mkSt [[], words8 mkB]) mkB mkB_len
  (mk_out_in (by omega) (by unfold words8; rw [List.length_map, List.length_range, mkB_len]; omega)) (mk_al _).1

/-- Any coefficients stand in the order `sigma` of some polynomial, so the inverse transform applies to all. -/
theorem mk_lay (a : Coeffs) : ∃ g : Poly, toPoly a = lay sigma g := by
  refine ⟨fun n => toPoly a ⟨n.val / 128 * 128 + n.val % 8 * 16 + n.val % 128 / 8, by omega⟩, funext fun i => ?_⟩
  refine congrArg (toPoly a) (Fin.ext ?_)
  have : ∀ n < 256, n = place n / 128 * 128 + place n % 8 * 16 + place n % 128 / 8 := by decide +kernel
  exact this i.val i.isLt

example := C64_intt (mkSt [words16 mkA, words16 qdata]) mkA (mk_lay mkA).choose mkA_i16 (mk_lay mkA).choose_spec
  (mk_io_in (w16_len (n := 64) mkA_bnd.1 (by omega)) mkQ) ⟨(mk_al _).1, (mk_al _).2.1⟩

theorem mkL_uns (n : Nat) : Uns 4096 (ints (mkL n)) :=
  ⟨by rw [ints_length, (mkL_lt n).1], fun x hx => by
    obtain ⟨y, hy, rfl⟩ := List.mem_map.1 hx
    have := (mkL_lt n).2 y hy
    omega⟩

theorem mkL_i16 (n : Nat) : I16 (ints (mkL n)) := ⟨(mkL_uns n).1, fun x hx => by have := (mkL_uns n).2 x hx; omega⟩

/-- Three arrays one after the other. -/
def mk3 (f : Fin 3 → Coeffs) : Words := words16 (f 0 ++ f 1 ++ f 2)

theorem mk3_len {f : Fin 3 → Coeffs} {n : Nat} (h : ∀ k, (f k).length = 4 * n) (hn : n ≤ 600) : (mk3 f).length ≤ 2048 :=
  w16_len (n := 3 * n) (by rw [List.length_append, List.length_append, h, h, h]; omega) (by omega)

example := C64_basemul
  (mkSt [[], mk3 fun k => ints (mkL k), mk3 fun k => ints (mkL (7 * k)), mk3 fun k => mulcache (ints (mkL (7 * k)))])
  (fun k => ints (mkL k)) (fun k => ints (mkL (7 * k))) (fun k => (mk_lay (ints (mkL k))).choose) (fun k => (mk_lay (ints (mkL (7 * k)))).choose)
  (fun k => mkL_uns k) (fun k => mkL_i16 (7 * k)) (fun k => (mk_lay (ints (mkL k))).choose_spec)
  (fun k => (mk_lay (ints (mkL (7 * k)))).choose_spec)
  (mk_out_in3 (by omega) (mk3_len (n := 64) (fun k => (mkL_uns k).1) (by omega)) (mk3_len (n := 64) (fun k => (mkL_uns (7 * k)).1) (by omega))
    (mk3_len (n := 32) (fun k => by show (mulcache _).length = _; rw [mulcache, arr_length]) (by omega))) (mk_al _)

/-- A sampler that meets the remaining assumption. -/
example := C64_contract_partial (fun B => ints ((accepted B).take 256)) fun _ _ => rfl

end Verif.Props
