import Verif.Proof.X86.Lane16Use
import Verif.Model.AsmX86.MlKem
import Verif.Model.MlKemX86

/-! The ML-KEM routines that follow each lane separately: the machine code computes what `Model/MlKemX86` says. -/
namespace Verif.X86.L16
open Verif Verif.X86 Verif.MlKem Verif.MlKem.X86

/-! ### Arrays as lanes -/

theorem words16_eq {a : Coeffs} {n : Nat} (h : a.length = 4 * n) : words16 a = laneWords n (lanes a) := by
  unfold words16
  rw [h, Nat.mul_div_cancel_left _ (by omega)]
  rfl

theorem words16_arr (n : Nat) (f : Nat → Lane) : words16 (arr (4 * n) f) = laneWords n f := by
  rw [words16_eq (n := n) (by unfold arr; rw [List.length_map, List.length_range])]
  refine laneWords_congr fun m hm => ?_
  unfold lanes arr
  rw [List.getD_eq_getElem?_getD, List.getElem?_map, List.getElem?_range hm]
  exact BitVec.ofInt_toInt

theorem bytes8_lanes (f : Nat → Byte) : ofBytes8 f = ofLanes4 fun k => f (2 * k + 1) ++ f (2 * k) := by
  apply BitVec.eq_of_getLsbD_eq
  intro b hb
  show BitVec.getLsbD (w := 8+8+8+8+8+8+8+8) (f 7 ++ f 6 ++ f 5 ++ f 4 ++ f 3 ++ f 2 ++ f 1 ++ f 0) b = _
  rw [ofLanes4_bit]
  simp only [BitVec.getLsbD_append]
  interval_cases b <;> rfl

theorem words8_eq {B : Bytes} {n : Nat} (h : B.length = 8 * n) :
    words8 B = laneWords n fun i => B.getD (2 * i + 1) 0#8 ++ B.getD (2 * i) 0#8 := by
  unfold words8 laneWords
  rw [h, Nat.mul_div_cancel_left _ (by omega)]
  refine List.map_congr_left fun i _ => ?_
  rw [bytes8_lanes]
  refine ofLanes4_congr fun k _ => ?_
  rw [show 8 * i + (2 * k + 1) = 2 * (4 * i + k) + 1 by ring, show 8 * i + 2 * k = 2 * (4 * i + k) by ring]

theorem fits_in {ρ : Nat → BitVec 16} {s : St} {r : Reg} {n : Nat} {al : Bool} {x : Nat → E} {ws : Words}
    (h : ws = laneWords (4 * n) fun m => (x m).val ρ) : Fits ρ s (⟨r, n, false, al⟩, some x) (inBlock (s.get r) ws) :=
  ⟨rfl, by rw [h]; exact laneWords_length _ _, rfl, fun y e => by cases e; exact congrArg _ h⟩

theorem fits_io {ρ : Nat → BitVec 16} {s : St} {r : Reg} {n : Nat} {al : Bool} {x : Nat → E} {ws : Words}
    (h : ws = laneWords (4 * n) fun m => (x m).val ρ) : Fits ρ s (⟨r, n, true, al⟩, some x) (ioBlock (s.get r) ws) :=
  ⟨rfl, by rw [h]; exact laneWords_length _ _, rfl, fun y e => by cases e; exact congrArg _ h⟩

theorem fits_out {ρ : Nat → BitVec 16} {s : St} {r : Reg} {n : Nat} {al : Bool} :
    Fits ρ s (⟨r, n, true, al⟩, none) (outBlock (s.get r) (4 * n)) :=
  ⟨rfl, rfl, rfl, fun _ e => by cases e⟩

/-- The words of an array whose lanes have the names from `k`. -/
theorem names {t : VSt} {b : Nat → BitVec 16} {n k : Nat} {f : Nat → Lane} (hk : k + 16 * n ≤ 100000)
    (h : ∀ m < 16 * n, b (k + m) = f m) : laneWords (4 * n) f = laneWords (4 * n) fun m => (E.v (k + m)).val (env t b) :=
  laneWords_congr fun m hm => by
    show _ = env t b (k + m)
    rw [env_lo t b (by omega), h m (by omega)]

/-! ### One array in place -/

def montE (x : E) (z z' : Nat) : E := .sub (.mulh x (.c z)) (.mulh (.mul x (.c z')) (.c 3329))
def redE (x : E) : E :=
  let y := E.sub (.sub x (.mul (.sra 10 (.mulh x (.c 20159))) (.c 3329))) (.c 3329)
  .add y (.and (.sra 15 y) (.c 3329))

section
variable {t : VSt} {a : Coeffs}

theorem inplace {P : VProg} {X : Nat → E} {f : Nat → Lane} (hc : check id [(⟨.rdi, 16, true, true⟩, some fun m => .v (0 + m))] P 16 X = true)
    (ha : a.length = 256) (hr : Ready t.s [ioBlock t.s.rdi (words16 a)]) (hal : Aligned32 t.s.rdi)
    (hX : ∀ ρ : Nat → BitVec 16, (∀ m < 256, ρ m = lanes a m) → ∀ m < 256, (X m).val ρ = f m) :
    VRuns P t (Ends t [ioBlock t.s.rdi (words16 a)] t.s.rdi (words16 (arr 256 f))) := by
  have h := check_sound (A := ⟨.rdi, 16, true, true⟩) (b := lanes a) (t := t) (fun e => rfl) hc hr
    (.cons (fits_io (by rw [words16_eq (n := 64) ha]; exact names (n := 16) (by omega) fun m _ => by rw [Nat.zero_add])) .nil)
    (by simp [arrs]) (by simpa [arrs] using (show Aligned32 (t.s.get .rdi) from hal))
  rw [show (arr 256 f) = arr (4 * 64) f from rfl, words16_arr]
  rw [show laneWords (4 * (⟨.rdi, 16, true, true⟩ : Arr).n) (fun m => (X m).val (env t (lanes a))) = laneWords 64 f from
    laneWords_congr fun m hm => hX _ (fun m hm => env_lo _ _ (by omega)) m (by omega)] at h
  exact h

set_option maxRecDepth 100000 in
theorem reduce_check : check id [(⟨.rdi, 16, true, true⟩, some fun m => .v (0 + m))] Asm.mlkemReduce 16 (fun m => redE (.v m)) = true := by
  decide +kernel

theorem reduce_run (ha : a.length = 256) (hr : Ready t.s [ioBlock t.s.rdi (words16 a)]) (hal : Aligned32 t.s.rdi) :
    VRuns Asm.mlkemReduce t (Ends t [ioBlock t.s.rdi (words16 a)] t.s.rdi (words16 (reduce a))) :=
  inplace reduce_check ha hr hal fun ρ h m hm => by
    show BitVec.add _ _ = canon _
    rw [← h m hm]
    rfl

set_option maxRecDepth 100000 in
theorem tomont_check : check id [(⟨.rdi, 16, true, true⟩, some fun m => .v (0 + m))] Asm.mlkemTomont 16 (fun m => montE (.v m) 1353 20553) = true := by
  decide +kernel

theorem mont_const (ρ : Nat → BitVec 16) (x : E) {z z' : Nat} (h : BitVec.ofNat 16 z' = BitVec.ofNat 16 z * 62209#16) :
    (montE x z z').val ρ = mont (x.val ρ) (BitVec.ofNat 16 z) := by
  show mulhi16 _ _ - mulhi16 (_ * BitVec.ofNat 16 z') _ = _
  rw [h]
  rfl

theorem tomont_run (ha : a.length = 256) (hr : Ready t.s [ioBlock t.s.rdi (words16 a)]) (hal : Aligned32 t.s.rdi) :
    VRuns Asm.mlkemTomont t (Ends t [ioBlock t.s.rdi (words16 a)] t.s.rdi (words16 (tomont a))) :=
  inplace tomont_check ha hr hal fun ρ h m hm => by
    rw [mont_const _ _ (by decide)]
    show mont (ρ m) _ = _
    rw [h m hm]

set_option maxRecDepth 100000 in
theorem unpack_check : check id [(⟨.rdi, 16, true, true⟩, some fun m => .v (0 + m))] Asm.mlkemUnpack 16 (fun m => .v (place m)) = true := by
  decide +kernel

theorem place_lt {m : Nat} (h : m < 256) : place m < 256 := by
  unfold place
  omega
theorem slot_lt {m : Nat} (h : m < 256) : slot m < 256 := by
  unfold slot
  omega
theorem slot_place {m : Nat} (h : m < 256) : slot (place m) = m := by
  revert m
  decide +kernel
theorem place_slot {m : Nat} (h : m < 256) : place (slot m) = m := by
  revert m
  decide +kernel

theorem unpack_run (ha : a.length = 256) (hr : Ready t.s [ioBlock t.s.rdi (words16 a)]) (hal : Aligned32 t.s.rdi) :
    VRuns Asm.mlkemUnpack t (Ends t [ioBlock t.s.rdi (words16 a)] t.s.rdi (words16 (unpack a))) :=
  inplace unpack_check ha hr hal fun ρ h m hm => h _ (place_lt hm)

end

/-! ### Bytes -/

def tobytesE (m : Nat) : E :=
  let x k := E.v (slot (4 * (m / 3) + k))
  match m % 3 with
  | 0 => .or (x 0) (.sll 12 (x 1))
  | 1 => .or (.sll 8 (x 2)) (.srl 4 (x 1))
  | _ => .or (.sll 4 (x 3)) (.srl 8 (x 2))

set_option maxRecDepth 100000 in
theorem tobytes_check : check id [(⟨.rdi, 12, true, false⟩, none), (⟨.rsi, 16, false, true⟩, some fun m => .v (0 + m))] Asm.mlkemTobytes 12
    tobytesE = true := by
  decide +kernel

def fromE (q : Nat) : Nat → E
  | 0 => .v (q + 0)
  | 1 => .or (.sll 4 (.v (q + 1))) (.srl 12 (.v (q + 0)))
  | 2 => .or (.sll 8 (.v (q + 2))) (.srl 8 (.v (q + 1)))
  | _ => .srl 4 (.v (q + 2))
def frombytesE (m : Nat) : E := .and (fromE (3 * (place m / 4)) (place m % 4)) (.c 4095)

set_option maxRecDepth 100000 in
theorem frombytes_check : check id [(⟨.rdi, 16, true, true⟩, none), (⟨.rsi, 12, false, false⟩, some fun m => .v (0 + m))] Asm.mlkemFrombytes 16
    frombytesE = true := by
  decide +kernel

theorem tobytes_length (a : Coeffs) : (tobytes a).length = 8 * 48 := by
  have key : ∀ (n : Nat) (f : Nat → BitVec 16), ((List.range n).flatMap fun i => [(f i).setWidth 8, (f i >>> 8).setWidth 8]).length = 2 * n := by
    intro n f
    induction n with
    | zero => rfl
    | succ n ih =>
      rw [List.range_succ, List.flatMap_append, List.length_append, ih]
      rfl
  exact key 192 _

theorem tobytes_get (a : Coeffs) {i : Nat} (hi : i < 192) :
    (tobytes a).getD (2 * i + 1) 0#8 ++ (tobytes a).getD (2 * i) 0#8 = tobytesLane a i := by
  have key : ∀ (n : Nat) (f : Nat → BitVec 16) (i k : Nat), i < n → k < 2 →
      ((List.range n).flatMap fun i => [(f i).setWidth 8, (f i >>> 8).setWidth 8]).getD (2 * i + k) 0#8 =
        [(f i).setWidth 8, (f i >>> 8).setWidth 8].getD k 0#8 := by
    intro n
    induction n with
    | zero => intro f i k hi; omega
    | succ n ih =>
      intro f i k hi hk
      rw [List.range_succ_eq_map, List.flatMap_cons, List.flatMap_map]
      cases i with
      | zero => 
        interval_cases k <;> rfl
      | succ i =>
        have := ih (fun i => f (i + 1)) i k (by omega) hk
        rw [show 2 * (i + 1) + k = (2 * i + k) + 1 + 1 by ring, List.cons_append, List.cons_append, List.nil_append, List.getD_cons_succ,
          List.getD_cons_succ]
        exact this
  unfold tobytes
  rw [key 192 (tobytesLane a) i 1 hi (by omega), show 2 * i = 2 * i + 0 from rfl, key 192 (tobytesLane a) i 0 hi (by omega)]
  show ((tobytesLane a i >>> 8).setWidth 8 ++ (tobytesLane a i).setWidth 8 : BitVec (8 + 8)) = tobytesLane a i
  generalize tobytesLane a i = x
  apply BitVec.eq_of_getLsbD_eq
  intro b hb
  simp only [BitVec.getLsbD_append, BitVec.getLsbD_setWidth, BitVec.getLsbD_ushiftRight]
  interval_cases b <;> rfl

theorem tobytes_run {t : VSt} {a : Coeffs} (ha : a.length = 256) (hr : Ready t.s [outBlock t.s.rdi 48, inBlock t.s.rsi (words16 a)])
    (hal : Aligned32 t.s.rsi) :
    VRuns Asm.mlkemTobytes t (Ends t [outBlock t.s.rdi 48, inBlock t.s.rsi (words16 a)] t.s.rdi (words8 (tobytes a))) := by
  have h := check_sound (A := ⟨.rdi, 12, true, false⟩) (b := lanes a) (t := t) (fun e => rfl) tobytes_check hr
    (.cons fits_out (.cons (fits_in (by rw [words16_eq (n := 64) ha]; exact names (n := 16) (by omega) fun m _ => by rw [Nat.zero_add])) .nil))
    (by simp [arrs]) (by simpa [arrs] using (show Aligned32 (t.s.get .rsi) from hal))
  rw [words8_eq (tobytes_length a)]
  rw [show laneWords (4 * (⟨.rdi, 12, true, false⟩ : Arr).n) (fun m => (tobytesE m).val (env t (lanes a))) =
      laneWords 48 fun i => (tobytes a).getD (2 * i + 1) 0#8 ++ (tobytes a).getD (2 * i) 0#8 from
    laneWords_congr fun m hm => by
      have hm : m < 192 := hm
      rw [tobytes_get a (by omega)]
      have h4 : 4 * (m / 3) + 3 < 256 := by omega
      have e : ∀ k ≤ 3, env t (lanes a) (slot (4 * (m / 3) + k)) = lanes a (slot (4 * (m / 3) + k)) := fun k hk =>
        env_lo _ _ (by have := slot_lt (m := 4 * (m / 3) + k) (by omega); omega)
      unfold tobytesE tobytesLane
      have h3 : m % 3 < 3 := by omega
      generalize m % 3 = r at h3
      interval_cases r
      · show env t _ _ ||| env t _ _ <<< 12 = _
        rw [e 0 (by omega), e 1 (by omega)]
        rfl
      · show env t _ _ <<< 8 ||| env t _ _ >>> 4 = _
        rw [e 2 (by omega), e 1 (by omega)]
        rfl
      · show env t _ _ <<< 4 ||| env t _ _ >>> 8 = _
        rw [e 3 (by omega), e 2 (by omega)]
        rfl] at h
  exact h

theorem frombytes_run {t : VSt} {B : Bytes} (hB : B.length = 384) (hr : Ready t.s [outBlock t.s.rdi 64, inBlock t.s.rsi (words8 B)])
    (hal : Aligned32 t.s.rdi) :
    VRuns Asm.mlkemFrombytes t (Ends t [outBlock t.s.rdi 64, inBlock t.s.rsi (words8 B)] t.s.rdi (words16 (frombytes B))) := by
  have h := check_sound (A := ⟨.rdi, 16, true, true⟩) (b := fun i => B.getD (2 * i + 1) 0#8 ++ B.getD (2 * i) 0#8) (t := t) (fun e => rfl)
    frombytes_check hr
    (.cons fits_out (.cons (fits_in (by rw [words8_eq (n := 48) hB]; exact names (n := 12) (by omega) fun m _ => by rw [Nat.zero_add])) .nil))
    (by simp [arrs]) (by simpa [arrs] using (show Aligned32 (t.s.get .rdi) from hal))
  rw [show frombytes B = arr (4 * 64) fun m => frombytesLane B (place m) from rfl, words16_arr]
  rw [show laneWords (4 * (⟨.rdi, 16, true, true⟩ : Arr).n) (fun m => (frombytesE m).val (env t fun i => B.getD (2 * i + 1) 0#8 ++ B.getD (2 * i) 0#8)) =
      laneWords 64 fun m => frombytesLane B (place m) from
    laneWords_congr fun m hm => by
      have hp := place_lt (m := m) (by omega)
      unfold frombytesE frombytesLane
      generalize place m = p at hp
      have e : ∀ k ≤ 2, env t (fun i => B.getD (2 * i + 1) 0#8 ++ B.getD (2 * i) 0#8) (3 * (p / 4) + k) =
          B.getD (2 * (3 * (p / 4) + k) + 1) 0#8 ++ B.getD (2 * (3 * (p / 4) + k)) 0#8 := fun k hk => env_lo _ _ (by omega)
      have h3 : p % 4 < 4 := by omega
      generalize p % 4 = r at h3
      interval_cases r
      · show env t _ _ &&& _ = _
        rw [e 0 (by omega)]
        rfl
      · show (env t _ _ <<< 4 ||| env t _ _ >>> 12) &&& _ = _
        rw [e 0 (by omega), e 1 (by omega)]
        rfl
      · show (env t _ _ <<< 8 ||| env t _ _ >>> 8) &&& _ = _
        rw [e 1 (by omega), e 2 (by omega)]
        rfl
      · show (env t _ _ >>> 4) &&& _ = _
        rw [e 2 (by omega)]
        rfl] at h
  exact h

/-! ### Products -/

/-- An element of `Q_DATA` as a constant. -/
def qE (m : Nat) : E := .c ((qdata.getD m 0) % 65536).toNat

theorem qE_val (ρ : Nat → BitVec 16) (m : Nat) : (qE m).val ρ = lanes qdata m := by
  show BitVec.ofNat 16 _ = BitVec.ofInt 16 _
  generalize qdata.getD m 0 = x
  apply BitVec.eq_of_toNat_eq
  rw [BitVec.toNat_ofNat, BitVec.toNat_ofInt]
  omega

def mulcacheE (i : Nat) : E :=
  let x := E.v (32 * (i / 16) + 16 + i % 16)
  .sub (.mulh (qE (496 + 16 * (i / 32) + i % 16)) x) (.mulh (.c 3329) (.mul (qE (560 + 16 * (i / 32) + i % 16)) x))

set_option maxRecDepth 100000 in
theorem mulcache_check : check id [(⟨.rdi, 8, true, true⟩, none), (⟨.rsi, 16, false, true⟩, some fun m => .v (0 + m)),
    (⟨.rdx, 39, false, true⟩, some qE)] Asm.mlkemMulcacheCompute 8 mulcacheE = true := by
  decide +kernel

/-- `mont (x, y)` with the factors as `mlkem_basemul_k3` has them. -/
def prodE (x y : E) : E := .sub (.mulh x y) (.mulh (.c 3329) (.mul x (.mul (.c 62209) y)))
def prodE' (x y : E) : E := .sub (.mulh (.c 3329) (.mul x (.mul (.c 62209) y))) (.mulh x y)
def basemul1E (k m : Nat) : E :=
  let e := 256 * k + 32 * (m / 32) + m % 16
  let o := e + 16
  match m / 16 % 2 with
  | 0 => .add (match m / 32 % 2 with
      | 0 => prodE (.v (2000 + (128 * k + 16 * (m / 32) + m % 16))) (.v (0 + o))
      | _ => prodE' (.v (2000 + (128 * k + 16 * (m / 32) + m % 16))) (.v (0 + o))) (prodE (.v (1000 + e)) (.v (0 + e)))
  | _ => .add (prodE (.v (1000 + e)) (.v (0 + o))) (prodE (.v (1000 + o)) (.v (0 + e)))
def basemulE (m : Nat) : E := .add (.add (basemul1E 0 m) (basemul1E 1 m)) (basemul1E 2 m)

set_option maxRecDepth 100000 in
theorem basemul_check : check id [(⟨.rdi, 16, true, true⟩, none), (⟨.rsi, 48, false, true⟩, some fun m => .v (0 + m)),
    (⟨.rdx, 48, false, true⟩, some fun m => .v (1000 + m)), (⟨.rcx, 24, false, true⟩, some fun m => .v (2000 + m))] Asm.mlkemBasemulK3 16 basemulE = true := by
  decide +kernel

theorem mul_swap (x y : BitVec 16) : mulhi16 x y = mulhi16 y x := by
  unfold mulhi16
  rw [Int.mul_comm]

theorem mont_swap (x z : BitVec 16) : mulhi16 z x - mulhi16 3329#16 (z * 62209#16 * x) = mont x z := by
  unfold mont
  rw [mul_swap z x, mul_swap 3329#16, BitVec.mul_comm (z * 62209#16) x]

theorem prodE_val (ρ : Nat → BitVec 16) (x y : E) : (prodE x y).val ρ = mont (x.val ρ) (y.val ρ) := by
  show mulhi16 _ _ - mulhi16 3329#16 (_ * (62209#16 * _)) = _
  unfold mont
  rw [mul_swap 3329#16, BitVec.mul_comm 62209#16]

theorem prodE'_val (ρ : Nat → BitVec 16) (x y : E) : (prodE' x y).val ρ = -mont (x.val ρ) (y.val ρ) := by
  rw [← prodE_val, show (prodE' x y).val ρ = (E.mulh (.c 3329) (.mul x (.mul (.c 62209) y))).val ρ - (E.mulh x y).val ρ from rfl,
    show (prodE x y).val ρ = (E.mulh x y).val ρ - (E.mulh (.c 3329) (.mul x (.mul (.c 62209) y))).val ρ from rfl]
  generalize (E.mulh x y).val ρ = p
  generalize (E.mulh (.c 3329) (.mul x (.mul (.c 62209) y))).val ρ = q
  exact (neg_sub p q).symm

theorem qdata_twist : ∀ i < 64, lanes qdata (560 + i) = lanes qdata (496 + i) * 62209#16 := by decide +kernel

theorem mulcache_run {t : VSt} {a : Coeffs} (ha : a.length = 256)
    (hr : Ready t.s [outBlock t.s.rdi 32, inBlock t.s.rsi (words16 a), inBlock t.s.rdx (words16 qdata)])
    (hal : Aligned32 t.s.rdi ∧ Aligned32 t.s.rsi ∧ Aligned32 t.s.rdx) :
    VRuns Asm.mlkemMulcacheCompute t (Ends t [outBlock t.s.rdi 32, inBlock t.s.rsi (words16 a), inBlock t.s.rdx (words16 qdata)] t.s.rdi
      (words16 (mulcache a))) := by
  have h := check_sound (A := ⟨.rdi, 8, true, true⟩) (b := lanes a) (t := t) (fun e => rfl) mulcache_check hr
    (.cons fits_out (.cons (fits_in (by rw [words16_eq (n := 64) ha]; exact names (n := 16) (by omega) fun m _ => by rw [Nat.zero_add]))
      (.cons (fits_in (by rw [words16_eq (n := 156) (by decide +kernel)]; exact laneWords_congr fun m _ => (qE_val _ m).symm)) .nil)))
    (by simp [arrs]) (by simpa [arrs] using (show Aligned32 (t.s.get .rdi) ∧ Aligned32 (t.s.get .rsi) ∧ Aligned32 (t.s.get .rdx) from hal))
  rw [show mulcache a = arr (4 * 32) fun i => mont (lanes a (32 * (i / 16) + 16 + i % 16)) (lanes qdata (496 + 16 * (i / 32) + i % 16)) from rfl,
    words16_arr]
  rw [show laneWords (4 * (⟨.rdi, 8, true, true⟩ : Arr).n) (fun m => (mulcacheE m).val (env t (lanes a))) =
      laneWords 32 fun i => mont (lanes a (32 * (i / 16) + 16 + i % 16)) (lanes qdata (496 + 16 * (i / 32) + i % 16)) from
    laneWords_congr fun m hm => by
      have hm : m < 128 := hm
      show mulhi16 ((qE _).val _) (env _ _ _) - mulhi16 3329#16 ((qE _).val _ * env _ _ _) = _
      rw [qE_val, qE_val, env_lo _ _ (by omega), Nat.add_assoc 560, qdata_twist _ (by omega), Nat.add_assoc 496, mont_swap]] at h
  exact h

theorem lanes_flat {l : List Coeffs} (h : ∀ x ∈ l, x.length = n) {k m : Nat} (hm : m < n) : lanes l.flatten (n * k + m) = lanes (l.getD k []) m := by
  induction l generalizing k with
  | nil => simp [lanes]
  | cons x l ih =>
    have hx := h x (by simp)
    cases k with
    | zero =>
      unfold lanes
      rw [List.flatten_cons, List.getD_eq_getElem?_getD, List.getElem?_append_left (by omega), Nat.mul_zero, Nat.zero_add, List.getD_cons_zero,
        List.getD_eq_getElem?_getD]
    | succ k =>
      rw [List.getD_cons_succ, ← ih (fun y hy => h y (by simp [hy]))]
      unfold lanes
      rw [List.flatten_cons, List.getD_eq_getElem?_getD, List.getElem?_append_right (by rw [hx]; nlinarith), hx,
        show n * (k + 1) + m - n = n * k + m by rw [Nat.mul_add]; omega, List.getD_eq_getElem?_getD]

theorem flat_length {l : List Coeffs} {n k : Nat} (hk : l.length = k) (h : ∀ x ∈ l, x.length = n) : l.flatten.length = k * n := by
  subst hk
  induction l with
  | nil => simp
  | cons x l ih =>
    rw [List.flatten_cons, List.length_append, h x (by simp), ih fun y hy => h y (by simp [hy]), List.length_cons]
    ring

theorem basemul1_val {a b c : List Coeffs} {ρ : Nat → BitVec 16} {k : Nat}
    (ha : ∀ m < 256, ρ (0 + (256 * k + m)) = lanes (a.getD k []) m) (hb : ∀ m < 256, ρ (1000 + (256 * k + m)) = lanes (b.getD k []) m)
    (hc : ∀ m < 128, ρ (2000 + (128 * k + m)) = lanes (c.getD k []) m) {m : Nat} (hm : m < 256) :
    (basemul1E k m).val ρ = basemul1 (a.getD k []) (b.getD k []) (c.getD k []) m := by
  unfold basemul1E basemul1
  have e0 := ha (32 * (m / 32) + m % 16) (by omega)
  have e1 := ha (32 * (m / 32) + m % 16 + 16) (by omega)
  have e2 := hb (32 * (m / 32) + m % 16) (by omega)
  have e3 := hb (32 * (m / 32) + m % 16 + 16) (by omega)
  have e4 := hc (16 * (m / 32) + m % 16) (by omega)
  simp only [← Nat.add_assoc] at e0 e1 e2 e3 e4
  have h1 : m / 16 % 2 < 2 := by omega
  have h2 : m / 32 % 2 < 2 := by omega
  generalize m / 16 % 2 = r1 at h1
  generalize m / 32 % 2 = r2 at h2
  interval_cases r1
  · interval_cases r2
    · show (prodE _ _).val ρ + (prodE _ _).val ρ = _
      rw [prodE_val, prodE_val]
      show mont (ρ _) (ρ _) + mont (ρ _) (ρ _) = _
      simp only [← Nat.add_assoc, e0, e1, e2, e4]
      rfl
    · show (prodE' _ _).val ρ + (prodE _ _).val ρ = _
      rw [prodE'_val, prodE_val]
      show -mont (ρ _) (ρ _) + mont (ρ _) (ρ _) = _
      simp only [← Nat.add_assoc, e0, e1, e2, e4]
      rfl
  · show (prodE _ _).val ρ + (prodE _ _).val ρ = _
    rw [prodE_val, prodE_val]
    show mont (ρ _) (ρ _) + mont (ρ _) (ρ _) = _
    simp only [← Nat.add_assoc, e0, e1, e2, e3]
    rfl

theorem basemul_run {t : VSt} {a b c : List Coeffs} (ha : a.length = 3 ∧ ∀ x ∈ a, x.length = 256) (hb : b.length = 3 ∧ ∀ x ∈ b, x.length = 256)
    (hc : c.length = 3 ∧ ∀ x ∈ c, x.length = 128)
    (hr : Ready t.s [outBlock t.s.rdi 64, inBlock t.s.rsi (words16 a.flatten), inBlock t.s.rdx (words16 b.flatten), inBlock t.s.rcx (words16 c.flatten)])
    (hal : Aligned32 t.s.rdi ∧ Aligned32 t.s.rsi ∧ Aligned32 t.s.rdx ∧ Aligned32 t.s.rcx) :
    VRuns Asm.mlkemBasemulK3 t (Ends t [outBlock t.s.rdi 64, inBlock t.s.rsi (words16 a.flatten), inBlock t.s.rdx (words16 b.flatten),
      inBlock t.s.rcx (words16 c.flatten)] t.s.rdi (words16 (basemul a b c))) := by
  have h := check_sound (A := ⟨.rdi, 16, true, true⟩)
    (b := fun n => if n < 1000 then lanes a.flatten n else if n < 2000 then lanes b.flatten (n - 1000) else lanes c.flatten (n - 2000)) (t := t) (fun e => rfl)
    basemul_check hr
    (.cons fits_out (.cons (fits_in (by
        rw [words16_eq (n := 192) (by rw [flat_length ha.1 ha.2])]
        exact names (n := 48) (by omega) fun m _ => by rw [if_pos (by omega), Nat.zero_add]))
      (.cons (fits_in (by
        rw [words16_eq (n := 192) (by rw [flat_length hb.1 hb.2])]
        exact names (n := 48) (by omega) fun m _ => by rw [if_neg (by omega), if_pos (by omega), Nat.add_sub_cancel_left]))
      (.cons (fits_in (by
        rw [words16_eq (n := 96) (by rw [flat_length hc.1 hc.2])]
        exact names (n := 24) (by omega) fun m _ => by rw [if_neg (by omega), if_neg (by omega), Nat.add_sub_cancel_left])) .nil))))
    (by simp [arrs]) (by simpa [arrs] using
      (show Aligned32 (t.s.get .rdi) ∧ Aligned32 (t.s.get .rsi) ∧ Aligned32 (t.s.get .rdx) ∧ Aligned32 (t.s.get .rcx) from hal))
  rw [show basemul a b c = arr (4 * 64) fun m => basemul1 (a.getD 0 []) (b.getD 0 []) (c.getD 0 []) m + basemul1 (a.getD 1 []) (b.getD 1 []) (c.getD 1 []) m +
    basemul1 (a.getD 2 []) (b.getD 2 []) (c.getD 2 []) m from rfl, words16_arr]
  generalize hρ : env t _ = ρ at h
  have key : ∀ k < 3, ∀ m < 256, (basemul1E k m).val ρ = basemul1 (a.getD k []) (b.getD k []) (c.getD k []) m := by
    intro k hk m hm
    subst hρ
    refine basemul1_val (fun m hm => ?_) (fun m hm => ?_) (fun m hm => ?_) hm
    · rw [env_lo _ _ (by omega), if_pos (by omega), Nat.zero_add, lanes_flat ha.2 hm]
    · rw [env_lo _ _ (by omega), if_neg (by omega), if_pos (by omega), Nat.add_sub_cancel_left, lanes_flat hb.2 hm]
    · rw [env_lo _ _ (by omega), if_neg (by omega), if_neg (by omega), Nat.add_sub_cancel_left, lanes_flat hc.2 hm]
  rw [show laneWords (4 * (⟨.rdi, 16, true, true⟩ : Arr).n) (fun m => (basemulE m).val ρ) =
      laneWords 64 fun m => basemul1 (a.getD 0 []) (b.getD 0 []) (c.getD 0 []) m + basemul1 (a.getD 1 []) (b.getD 1 []) (c.getD 1 []) m +
    basemul1 (a.getD 2 []) (b.getD 2 []) (c.getD 2 []) m from
    laneWords_congr fun m hm => by
      have hm : m < 256 := hm
      show (basemul1E 0 m).val ρ + (basemul1E 1 m).val ρ + (basemul1E 2 m).val ρ = _
      rw [key 0 (by omega) m hm, key 1 (by omega) m hm, key 2 (by omega) m hm]] at h
  exact h

end Verif.X86.L16
