import Verif.Base.Bytes

/-!
Model of `graviola/src/high/asn1.rs`: DER parser, encoder and the primitive types.

Simplifications, throughout this file:
* A Rust slice cursor (`Parser::input`) is the list of bytes not yet read; a function taking
  `&mut Parser` takes that list and returns the new one.  On error the cursor is dropped: every
  caller in the crate propagates the error with `?`, so it is never observed.
* `usize` is `Nat`.  A slice length is below `2^63`, so no arithmetic here can wrap.
* Lifetimes and `Debug` are not modelled.
* A panic is the explicit value `.error .panic`.
-/
namespace Verif.Asn1

/-- `asn1::Error`, asn1.rs:800-812. -/
inductive Error
  | UnexpectedTag | UnexpectedEof | UnexpectedTrailingData | NonCanonicalEncoding
  | UnhandledEnumValue | IntegerOutOfRange | IllegalNull | UnsupportedLargeObjectId
  | UnsupportedLargeObjectLength | UnhandledBitString
  deriving DecidableEq, Repr

/-- Outcome of a call that does not return `Ok`: an error value, or a panic. -/
inductive Fault
  | err (e : Error)
  | panic
  deriving DecidableEq, Repr

/-- `Result<α, Error>` plus panics. -/
abbrev R (α : Type) := Except Fault α

/-! ### Tags, asn1.rs:833-871 -/

abbrev Tag := Byte
namespace Tag
def INTEGER : Tag := 0x02#8        -- asn1.rs:857
def BIT_STRING : Tag := 0x03#8     -- asn1.rs:858
def OCTET_STRING : Tag := 0x04#8   -- asn1.rs:859
def NULL : Tag := 0x05#8           -- asn1.rs:860
def OBJECT_ID : Tag := 0x06#8      -- asn1.rs:861
def SEQUENCE : Tag := 0x30#8       -- asn1.rs:863
def CONSTRUCTED : Tag := 0x20#8    -- asn1.rs:865
def CONTEXT_SPECIFIC : Tag := 0x80#8 -- asn1.rs:866
/-- `Tag::acceptable`, asn1.rs:837-839. -/
def acceptable (self offered : Tag) : Bool := self == offered
/-- `Tag::constructed`, asn1.rs:841-843. -/
def constructed (t : Tag) : Bool := t == SEQUENCE || (t &&& CONSTRUCTED) == CONSTRUCTED
/-- `Tag::context`, asn1.rs:845-851. -/
def context (id : Byte) (constructed : Bool) : Tag :=
  CONTEXT_SPECIFIC ||| (if constructed then CONSTRUCTED else 0#8) ||| id
end Tag

/-! ### Parser, asn1.rs:638-714 -/

/-- `Parser::one_byte`, asn1.rs:683-687. -/
def oneByte : Bytes → R (Byte × Bytes)
  | [] => .error (.err .UnexpectedEof)
  | b :: rest => .ok (b, rest)

/-- `Parser::take_len`, asn1.rs:689-713. -/
def takeLen (p : Bytes) : R (Nat × Bytes) := do
  let (lenByte, p) ← oneByte p
  if lenByte ≤ 0x7f#8 then
    .ok (lenByte.toNat, p)
  else if lenByte = 0x81#8 then
    let (len, p) ← oneByte p
    if len < 0x80#8 then .error (.err .NonCanonicalEncoding) else .ok (len.toNat, p)
  else if lenByte = 0x82#8 then
    let (hi, p) ← oneByte p
    let (lo, p) ← oneByte p
    let len := (hi.toNat <<< 8) ||| lo.toNat
    if len < 0x100 then .error (.err .NonCanonicalEncoding) else .ok (len, p)
  else
    .error (.err .UnsupportedLargeObjectLength)

/-- `Parser::take`, asn1.rs:647-658; returns the body and the rest.  The returned `Tag` equals
the wanted tag and no caller uses it, so it is left out. -/
def take (wantTag : Tag) (p : Bytes) : R (Bytes × Bytes) := do
  let (tag, p) ← oneByte p
  if !(Tag.acceptable wantTag tag) then .error (.err .UnexpectedTag) else do
  let (len, p) ← takeLen p
  if len ≤ p.length then .ok (p.take len, p.drop len) else .error (.err .UnexpectedEof)

/-- `Parser::peek_tag`, asn1.rs:665-671. -/
def peekTag : Bytes → R Tag
  | [] => .error (.err .UnexpectedEof)
  | b :: _ => .ok b

/-- `Parser::check_end`, asn1.rs:677-683. -/
def checkEnd (p : Bytes) : R Unit :=
  if p.length ≠ 0 then .error (.err .UnexpectedTrailingData) else .ok ()

/-! ### Encoder, asn1.rs:716-786

`out` is the not yet written part of the slice the encoder owns and `done` the part already
passed (Rust forgets it: it is only reachable again through the caller's buffer).  `written` is
the Rust counter.  On error the partly written buffer is dropped. -/

/-- `Encoder`, asn1.rs:716-719. -/
structure Encoder where
  done : Bytes
  out : Bytes
  written : Nat
  deriving Repr

/-- `Encoder::new`, asn1.rs:722-724. -/
def Encoder.new (out : Bytes) : Encoder := { done := [], out, written := 0 }

/-- `Encoder::push`, asn1.rs:726-735. -/
def Encoder.push (e : Encoder) (byte : Byte) : R Encoder :=
  match e.out with
  | [] => .error (.err .UnexpectedEof)
  | _ :: rest => .ok { done := e.done ++ [byte], out := rest, written := e.written + 1 }

/-- `Encoder::append_slice`, asn1.rs:737-747. -/
def Encoder.appendSlice (e : Encoder) (bytes : Bytes) : R Encoder :=
  if e.out.length < bytes.length then .error (.err .UnexpectedEof)
  else .ok { done := e.done ++ bytes, out := e.out.drop bytes.length,
             written := e.written + bytes.length }

/-- `Encoder::split`, asn1.rs:749-763.  Returns the child and the parent as it is afterwards.
While the child lives the parent's `done` lacks the child's part; see `Encoder.join`. -/
def Encoder.split (e : Encoder) (len : Nat) : R (Encoder × Encoder) :=
  if e.out.length < len then .error (.err .UnexpectedEof)
  else .ok ({ done := [], out := e.out.take len, written := e.written },
            { done := e.done, out := e.out.drop len, written := e.written + len })

/-- The end of the child's borrow: both are parts of one buffer in Rust (no code). -/
def Encoder.join (parent child : Encoder) : Encoder :=
  { parent with done := parent.done ++ child.done ++ child.out }

/-- The loop of pushes in `Encoder::begin`, asn1.rs:774-776. -/
def Encoder.pushAll (e : Encoder) : Bytes → R Encoder
  | [] => .ok e
  | b :: bs => do
    let e ← e.push b
    e.pushAll bs

/-- `Encoder::begin`, asn1.rs:765-781. `(toBE 8 n).drop (8 - bytes)` are the bytes
`len_encoded[len_encoded.len() - bytes + i]`, `i` in `0..bytes`. -/
def Encoder.begin (e : Encoder) (tag : Tag) (bodyLen : Nat) : R (Encoder × Encoder) := do
  let e ← e.push tag
  if bodyLen ≤ 0x7f then
    let e ← e.push (BitVec.ofNat 8 bodyLen)
    e.split bodyLen
  else
    let bytes := (Nat.log2 bodyLen + 1 + 7) / 8
    let e ← e.push (0x80#8 + BitVec.ofNat 8 bytes)
    let e ← e.pushAll ((toBE 8 bodyLen).drop (8 - bytes))
    e.split bodyLen

/-- `Encoder::finish`, asn1.rs:783-785. -/
def Encoder.finish (e : Encoder) : Nat := e.written

/-- `encoded_length_for`, asn1.rs:788-798. -/
def encodedLengthFor (len : Nat) : R Nat :=
  if len ≤ 0x7f then .ok (1 + 1 + len)
  else if len ≤ 0xff then .ok (1 + 1 + 1 + len)
  else if len ≤ 0xffff then .ok (1 + 1 + 2 + len)
  else if len ≤ 0xffffff then .ok (1 + 1 + 3 + len)
  else if len ≤ 0xffffffff then .ok (1 + 1 + 4 + len)
  else .error .panic

/-! ### The `Type` trait, asn1.rs:132-152 -/

/-- `trait Type`, asn1.rs:132-152: the methods an implementation supplies. -/
structure Codec (T : Type) where
  tag : Tag
  parseWithTag : Tag → Bytes → R (T × Bytes)
  encodeWithTag : Tag → T → Encoder → R (Nat × Encoder)
  encodedLen : T → R Nat

variable {T : Type}

/-- `Type::parse`, asn1.rs:133-135. -/
def Codec.parse (c : Codec T) (p : Bytes) : R (T × Bytes) := c.parseWithTag c.tag p

/-- `Type::encode`, asn1.rs:138-140. -/
def Codec.encode (c : Codec T) (v : T) (e : Encoder) : R (Nat × Encoder) :=
  c.encodeWithTag c.tag v e

/-- `Type::from_bytes`, asn1.rs:144-149. -/
def Codec.fromBytes (c : Codec T) (b : Bytes) : R T := do
  let (t, p) ← c.parse b
  checkEnd p
  .ok t

/-- What a caller sees of `v.encode(&mut Encoder::new(buf))`: the returned length and the
buffer's new contents. -/
def Codec.encodeInto (c : Codec T) (v : T) (buf : Bytes) : R (Nat × Bytes) := do
  let (n, e) ← c.encode v (Encoder.new buf)
  .ok (n, e.done ++ e.out)

/-- Shared shape of `encode_with_tag` for the primitive types: `begin`, `append_slice`, `finish`
(asn1.rs:397-401, 547-551, 585-589; NULL, asn1.rs:313-315, with an empty body). -/
def encodeBody (tag : Tag) (body : Bytes) (e : Encoder) : R (Nat × Encoder) := do
  let (child, parent) ← e.begin tag body.length
  let child ← child.appendSlice body
  .ok (child.finish, parent.join child)

/-- `Null`, asn1.rs:300-323. -/
inductive Null | null
  deriving DecidableEq, Repr

/-- `impl Type for Null`, asn1.rs:303-323. -/
def nullCodec : Codec Null where
  tag := Tag.NULL
  parseWithTag tag p := do
    let (body, p) ← take tag p
    if body.isEmpty then .ok (.null, p) else .error (.err .IllegalNull)
  encodeWithTag tag _ e := do
    let (child, parent) ← e.begin tag 0
    .ok (child.finish, parent.join child)
  encodedLen _ := encodedLengthFor 0

/-- `ObjectId`, asn1.rs:325-329.  The 16-byte buffer and `used` count are the list of used bytes,
with the bound kept as a proof.  Rust's derived `PartialEq` also compares the unused tail, which
every constructor leaves zero. -/
structure ObjectId where
  bytes : Bytes
  bound : bytes.length ≤ 16
  deriving DecidableEq, Repr

/-- `impl Type for ObjectId`, asn1.rs:382-408. -/
def objectIdCodec : Codec ObjectId where
  tag := Tag.OBJECT_ID
  parseWithTag tag p := do
    let (body, p) ← take tag p
    if h : body.length ≤ 16 then .ok (⟨body, h⟩, p)
    else .error (.err .UnsupportedLargeObjectId)
  encodeWithTag tag v e := encodeBody tag v.bytes e
  encodedLen v := encodedLengthFor v.bytes.length

/-- `(item >> (7*chunks)) as u8 | 0x80` for `chunks` counting down, then the last seven bits:
the `while` loop of `from_path`, asn1.rs:358-367. -/
def oidChunks (item : Nat) : Nat → Bytes
  | 0 => [BitVec.ofNat 8 (item % 128)]
  | chunks + 1 => (BitVec.ofNat 8 (item >>> ((chunks + 1) * 7)) ||| 0x80#8) :: oidChunks item chunks

/-- One arc of `from_path`, asn1.rs:352-367. -/
def oidArc (item : Nat) : Bytes :=
  if item < 0x7f then [BitVec.ofNat 8 item]
  else oidChunks item ((Nat.log2 item + 1 + 6) / 7 - 1)

/-- The bytes `ObjectId::from_path` writes, asn1.rs:332-377.  `(path[0] as u8) * 40 + ...` is `u8`
arithmetic: it panics on overflow (these are `const` evaluated, so it would fail to compile). -/
def oidPathBytes : List Nat → R Bytes
  | [] => .ok []
  | [a] => .ok [BitVec.ofNat 8 a]
  | a :: b :: rest =>
    if (a % 256) * 40 + b % 256 < 256 then
      .ok (BitVec.ofNat 8 ((a % 256) * 40 + b % 256) :: (rest.map oidArc).flatten)
    else .error .panic

/-- `ObjectId::from_path`, asn1.rs:332-377: a panic if the 16-byte buffer overflows. -/
def ObjectId.fromPath (path : List Nat) : R ObjectId := do
  let bytes ← oidPathBytes path
  if h : bytes.length ≤ 16 then .ok ⟨bytes, h⟩ else .error .panic

/-- `Integer`, asn1.rs:416-419. -/
structure Integer where
  twosComplement : Bytes
  deriving DecidableEq, Repr

/-- Whether `b & 0x80 == 0x80`. -/
def topSet (b : Byte) : Bool := (b &&& 0x80#8) == 0x80#8

/-- The loop `while bytes.len() > 1 && bytes[0] == 0xff && bytes[1] & 0x80 == 0x80`,
asn1.rs:444-446. -/
def stripFF : Bytes → Bytes
  | a :: b :: rest => if a == 0xff#8 && topSet b then stripFF (b :: rest) else a :: b :: rest
  | bs => bs

/-- The loop `while bytes.len() > 1 && bytes[0] == 0x00 && bytes[1] & 0x80 == 0x00`,
asn1.rs:448-450. -/
def strip00 : Bytes → Bytes
  | a :: b :: rest => if a == 0#8 && !topSet b then strip00 (b :: rest) else a :: b :: rest
  | bs => bs

/-- `Integer::new`, asn1.rs:433-457. -/
def Integer.new (bytes : Bytes) : Integer :=
  if bytes.isEmpty || bytes.all (· == 0#8) then ⟨[0#8]⟩
  else if topSet (bytes.headD 0#8) then ⟨stripFF bytes⟩
  else ⟨strip00 bytes⟩

/-- `while !value.is_empty() && value[0] == 0x00`, asn1.rs:473-475. -/
def stripZeros (bs : Bytes) : Bytes := bs.dropWhile (· == 0#8)

/-- `Integer::new_positive`, asn1.rs:471-492.  `bufLen` is the caller's scratch buffer length;
a too small buffer panics in Rust. -/
def Integer.newPositive (bufLen : Nat) (value : Bytes) : R Integer :=
  let value := stripZeros value
  let out := match value with
    | [] => [0#8]
    | b :: rest => if topSet b then 0#8 :: b :: rest else b :: rest
  if out.length ≤ bufLen then .ok ⟨out⟩ else .error .panic

/-- `Integer::is_negative`, asn1.rs:494-499. -/
def Integer.isNegative (i : Integer) : Bool :=
  match i.twosComplement with
  | [] => false
  | b :: _ => topSet b

/-- `Integer::as_usize`, asn1.rs:501-509, for the 64-bit targets the crate supports. -/
def Integer.asUsize (i : Integer) : R Nat :=
  if i.isNegative || i.twosComplement.length > 8 then .error (.err .IntegerOutOfRange)
  else .ok (beNat (List.replicate (8 - i.twosComplement.length) 0#8 ++ i.twosComplement))

/-- `Integer::minimum_magnitude_check`, asn1.rs:511-534. -/
def Integer.minimumMagnitudeCheck (bs : Bytes) : R Integer :=
  match bs with
  | [] => .error (.err .IntegerOutOfRange)
  | a :: b :: _ =>
    if a == 0xff#8 && topSet b then .error (.err .IntegerOutOfRange)
    else if a == 0#8 && !topSet b then .error (.err .IntegerOutOfRange)
    else .ok ⟨bs⟩
  | _ => .ok ⟨bs⟩

/-- `impl Type for Integer`, asn1.rs:541-559. -/
def integerCodec : Codec Integer where
  tag := Tag.INTEGER
  parseWithTag tag p := do
    let (body, p) ← take tag p
    let i ← Integer.minimumMagnitudeCheck body
    .ok (i, p)
  encodeWithTag tag v e := encodeBody tag v.twosComplement e
  encodedLen v := encodedLengthFor v.twosComplement.length

/-- `OctetString`, asn1.rs:562-564. -/
structure OctetString where
  octets : Bytes
  deriving DecidableEq, Repr

/-- `impl Type for OctetString`, asn1.rs:576-594. -/
def octetStringCodec : Codec OctetString where
  tag := Tag.OCTET_STRING
  parseWithTag tag p := do
    let (body, p) ← take tag p
    .ok (⟨body⟩, p)
  encodeWithTag tag v e := encodeBody tag v.octets e
  encodedLen v := encodedLengthFor v.octets.length

/-- `BitString`, asn1.rs:597-599. -/
structure BitString where
  octets : Bytes
  deriving DecidableEq, Repr

/-- `impl Type for BitString`, asn1.rs:611-636. -/
def bitStringCodec : Codec BitString where
  tag := Tag.BIT_STRING
  parseWithTag tag p := do
    let (body, p) ← take tag p
    match body with
    | [] => .error (.err .UnexpectedEof)
    | b :: rest => if b = 0#8 then .ok (⟨rest⟩, p) else .error (.err .UnhandledBitString)
  encodeWithTag tag v e := do
    let (child, parent) ← e.begin tag (v.octets.length + 1)
    let child ← child.push 0#8
    let child ← child.appendSlice v.octets
    .ok (child.finish, parent.join child)
  encodedLen v := encodedLengthFor (v.octets.length + 1)

/-- `Any`, asn1.rs:154-161. -/
inductive Any
  | Null (n : Null)
  | Integer (i : Integer)
  | OctetString (o : OctetString)
  | BitString (b : BitString)
  | ObjectId (o : ObjectId)
  deriving DecidableEq, Repr

/-- `impl Type for Any`, asn1.rs:163-196. -/
def anyCodec : Codec Any where
  tag := 0#8
  parseWithTag _ p := do
    let t ← peekTag p
    if t = Tag.NULL then do let (x, p) ← nullCodec.parse p; .ok (.Null x, p)
    else if t = Tag.INTEGER then do let (x, p) ← integerCodec.parse p; .ok (.Integer x, p)
    else if t = Tag.OCTET_STRING then do
      let (x, p) ← octetStringCodec.parse p; .ok (.OctetString x, p)
    else if t = Tag.BIT_STRING then do let (x, p) ← bitStringCodec.parse p; .ok (.BitString x, p)
    else if t = Tag.OBJECT_ID then do let (x, p) ← objectIdCodec.parse p; .ok (.ObjectId x, p)
    else .error (.err .UnexpectedTag)
  encodeWithTag _ v e := match v with
    | .Null x => nullCodec.encode x e
    | .Integer x => integerCodec.encode x e
    | .BitString x => bitStringCodec.encode x e
    | .OctetString x => octetStringCodec.encode x e
    | .ObjectId x => objectIdCodec.encode x e
  encodedLen v := match v with
    | .Null x => nullCodec.encodedLen x
    | .Integer x => integerCodec.encodedLen x
    | .BitString x => bitStringCodec.encodedLen x
    | .OctetString x => octetStringCodec.encodedLen x
    | .ObjectId x => objectIdCodec.encodedLen x

/-- `impl Type for Option<T>`, asn1.rs:198-222. -/
def optionCodec (c : Codec T) : Codec (Option T) where
  tag := c.tag
  parseWithTag tag p :=
    if p.length > 0 then do let (x, p) ← c.parseWithTag tag p; .ok (some x, p)
    else .ok (none, p)
  encodeWithTag tag v e := match v with
    | none => .ok (0, e)
    | some a => c.encodeWithTag tag a e
  encodedLen v := match v with
    | none => .ok 0
    | some a => c.encodedLen a

/-- `impl Type for Context<ID, EXPLICIT, T>`, asn1.rs:224-301.  `Context` is its `Option<T>`. -/
def contextCodec (id : Byte) (explicit : Bool) (c : Codec T) : Codec (Option T) where
  tag := if explicit then Tag.context id true else Tag.context id (Tag.constructed c.tag)
  parseWithTag tag p :=
    match peekTag p with
    | .ok tt =>
      if Tag.acceptable tag tt then
        if explicit || Tag.constructed tag then do
          let (body, p) ← take tag p
          let (t, sub) ← c.parse body
          checkEnd sub
          .ok (some t, p)
        else do
          let (t, p) ← c.parseWithTag tag p
          .ok (some t, p)
      else .ok (none, p)
    | .error _ => .ok (none, p)
  encodeWithTag tag v e := match v with
    | none => .ok (0, e)
    | some item =>
      if explicit || Tag.constructed tag then do
        let bodyLen ← c.encodedLen item
        let (child, parent) ← e.begin tag bodyLen
        let (_, child) ← c.encode item child
        .ok (child.finish, parent.join child)
      else c.encodeWithTag tag item e
  encodedLen v := match v with
    | none => .ok 0
    | some item =>
      let tag := if explicit then Tag.context id true else Tag.context id (Tag.constructed c.tag)
      if Tag.constructed tag then do encodedLengthFor (← c.encodedLen item)
      else c.encodedLen item

/-! ### The macros -/

/-- The per-field code generated by `asn1_struct!` (asn1.rs:46-49, 59-60, 74): parse, encode and
length of the fields in order, for a struct seen as the tuple of its fields. -/
structure Fields (T : Type) where
  parse : Bytes → R (T × Bytes)
  encode : T → Encoder → R Encoder
  bodyLen : T → R Nat

/-- Last field of a struct. -/
def Fields.last (c : Codec T) : Fields T where
  parse p := c.parse p
  encode v e := do let (_, e) ← c.encode v e; .ok e
  bodyLen v := c.encodedLen v

/-- A field followed by others. -/
def Fields.cons {A B : Type} (c : Codec A) (f : Fields B) : Fields (A × B) where
  parse p := do
    let (a, p) ← c.parse p
    let (b, p) ← f.parse p
    .ok ((a, b), p)
  encode v e := do
    let (_, e) ← c.encode v.1 e
    f.encode v.2 e
  bodyLen v := do
    let a ← c.encodedLen v.1
    let b ← f.bodyLen v.2
    .ok (a + b)

/-- `asn1_struct!`, asn1.rs:35-82, for the fields `f`; `mk` and `get` relate the struct to the
tuple of its fields. -/
def structCodec {S : Type} (f : Fields T) (mk : T → S) (get : S → T) : Codec S where
  tag := Tag.SEQUENCE
  parseWithTag tag p := do
    let (body, p) ← take tag p
    let (r, sub) ← f.parse body
    checkEnd sub
    .ok (mk r, p)
  encodeWithTag tag v e := do
    let len ← f.bodyLen (get v)
    let (child, parent) ← e.begin tag len
    let child ← f.encode (get v) child
    .ok (child.finish, parent.join child)
  encodedLen v := do encodedLengthFor (← f.bodyLen (get v))

/-- `asn1_enum!`, asn1.rs:84-118: `num` is the discriminant, `ofNum` the generated `match`. -/
def enumCodec (num : T → Nat) (ofNum : Nat → Option T) : Codec T where
  tag := Tag.INTEGER
  parseWithTag tag p := do
    let (i, p) ← integerCodec.parseWithTag tag p
    let v ← i.asUsize
    match ofNum v with
    | some t => .ok (t, p)
    | none => .error (.err .UnhandledEnumValue)
  encodeWithTag tag v e := integerCodec.encodeWithTag tag (Integer.new (toBE 8 (num v))) e
  encodedLen v := integerCodec.encodedLen (Integer.new (toBE 8 (num v)))

end Verif.Asn1
