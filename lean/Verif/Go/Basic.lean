/-
Go run-time and standard-library pieces used by libs/egts and cli/*.
These definitions model the Go standard library (documented behaviour), not code of the
repository; they belong to the trusted base (see DESIGN.md).
-/
set_option autoImplicit false
namespace Egts

/-- A Go `[]byte` / Go `string` value: Go strings are byte sequences. -/
abbrev Bytes := List UInt8

/-- Go `error` values that the modelled code can produce.  The human readable message is not
modelled, only the origin of the error and the values in the message. -/
inductive Err where
  | eof                      -- io.EOF wrapped by fmt.Errorf
  | parseSyntax              -- strconv.ErrSyntax
  | parseRange               -- strconv.ErrRange
  | unknownSubrecord (t : UInt8) (n : UInt16) (c : Bytes)  -- libs/egts/record_data.go:77: type, length field and content are in the text
  | accelNotImplemented (n : UInt16) (c : Bytes)            -- libs/egts/record_data.go:58
  | badSize
  | proto                    -- error returned by golang/protobuf
  | unknownData              -- subrecord kind without type code
  | unsupportedPacketType (t : UInt8)
  | headerCrc
  | bodyCrc
deriving DecidableEq, Repr

/-- Result of a Go function returning `(T, error)`; `panic` is a run-time panic. -/
inductive Go (α : Type) where
  | ok (a : α)
  | err (e : Err)
  | panic
deriving DecidableEq, Repr

namespace Go
variable {α β : Type}
protected def bind : Go α → (α → Go β) → Go β
  | .ok a, f => f a
  | .err e, _ => .err e
  | .panic, _ => .panic

instance : Monad Go where
  pure := .ok
  bind := Go.bind

@[simp] theorem pure_def (a : α) : (pure a : Go α) = .ok a := rfl
@[simp] theorem ok_bind (a : α) (f : α → Go β) : (Go.ok a >>= f) = f a := rfl
@[simp] theorem err_bind (e : Err) (f : α → Go β) : (Go.err e >>= f) = .err e := rfl
@[simp] theorem panic_bind (f : α → Go β) : ((Go.panic : Go α) >>= f) = .panic := rfl
end Go

/-- Outcome of running a decoding method on receiver state `σ` with unread input.
`diverge` is only produced when a fuel parameter of the model runs out; it is proved
unreachable (property C04). On errors the partially updated receiver is kept. -/
inductive Res (σ α : Type) where
  | ok (a : α) (s : σ) (r : Bytes)
  | err (e : Err) (s : σ)
  | panic
  | diverge
deriving DecidableEq, Repr

/-- Decoder action: receiver state + unread bytes of the `bytes.Reader`/`bytes.Buffer`. -/
def Dec (σ α : Type) := σ → Bytes → Res σ α

namespace Dec
variable {σ α β : Type}

protected def pure (a : α) : Dec σ α := fun s r => .ok a s r

protected def bind (m : Dec σ α) (f : α → Dec σ β) : Dec σ β := fun s r =>
  match m s r with
  | .ok a s' r' => f a s' r'
  | .err e s' => .err e s'
  | .panic => .panic
  | .diverge => .diverge

instance : Monad (Dec σ) where
  pure := Dec.pure
  bind := Dec.bind

theorem bind_apply (m : Dec σ α) (f : α → Dec σ β) (s : σ) (r : Bytes) :
    (m >>= f) s r = match m s r with
      | .ok a s' r' => f a s' r'
      | .err e s' => .err e s'
      | .panic => .panic
      | .diverge => .diverge := rfl

@[simp] theorem pure_apply (a : α) (s : σ) (r : Bytes) :
    (pure a : Dec σ α) s r = .ok a s r := rfl

theorem bind_ok {m : Dec σ α} {f : α → Dec σ β} {s s' : σ} {r r' : Bytes} {a : α}
    (h : m s r = .ok a s' r') : (m >>= f) s r = f a s' r' := by
  rw [bind_apply, h]

/-- `x, err := buf.ReadByte()`: next byte or io.EOF (Go: bytes.Reader.ReadByte, bytes.Buffer.ReadByte). -/
def readByte : Dec σ UInt8 := fun s r =>
  match r with
  | [] => .err .eof s
  | b :: r' => .ok b s r'

/-- `if e.F, err = buf.ReadByte(); err != nil { return ... }`: on EOF the field is assigned 0
before the error is returned. -/
def readByteTo (set : σ → UInt8 → σ) : Dec σ Unit := fun s r =>
  match r with
  | [] => .err .eof (set s 0)
  | b :: r' => .ok () (set s b) r'

/-- `_, err := buf.Read(p)` of bytes.Reader: at end of input io.EOF (even when `len(p) = 0`),
otherwise copies `min(len p, unread)` bytes and keeps the old tail of `p`: a short read is *not* an error.
(bytes.Buffer.Read differs only for `len(p) = 0`, which does not occur in the modelled uses of Buffer.) -/
def read (p : Bytes) : Dec σ Bytes := fun s r =>
  match r with
  | [] => .err .eof s
  | _ => .ok (r.take p.length ++ p.drop r.length) s (r.drop p.length)

/-- unread bytes (`buf.Len()`, `buf.Bytes()`, `buf.String()`). -/
def unread : Dec σ Bytes := fun s r => .ok r s r

/-- `buf.Next(n)` of bytes.Buffer: at most `n` bytes. -/
def next (n : Nat) : Dec σ Bytes := fun s r => .ok (r.take n) s (r.drop n)

/-- assignment to fields of the receiver. -/
def upd (f : σ → σ) : Dec σ Unit := fun s r => .ok () (f s) r

/-- current receiver. -/
def get : Dec σ σ := fun s r => .ok s s r

/-- `return err`. -/
def fail (e : Err) : Dec σ α := fun s _ => .err e s

/-- `if cond { body }`. -/
def when (c : Bool) (m : Dec σ Unit) : Dec σ Unit := if c then m else pure ()

@[simp] theorem readByte_nil (s : σ) : readByte s [] = .err .eof s := rfl
@[simp] theorem readByte_cons (s : σ) (b : UInt8) (r : Bytes) : readByte s (b :: r) = .ok b s r := rfl
@[simp] theorem readByteTo_nil (f : σ → UInt8 → σ) (s : σ) :
    readByteTo f s [] = .err .eof (f s 0) := rfl
@[simp] theorem readByteTo_cons (f : σ → UInt8 → σ) (s : σ) (b : UInt8) (r : Bytes) :
    readByteTo f s (b :: r) = .ok () (f s b) r := rfl
@[simp] theorem read_nil (p : Bytes) (s : σ) : read p s [] = .err .eof s := rfl
@[simp] theorem read_cons (p : Bytes) (s : σ) (b : UInt8) (r : Bytes) :
    read p s (b :: r) = .ok ((b :: r).take p.length ++ p.drop (r.length + 1)) s ((b :: r).drop p.length) := rfl
@[simp] theorem unread_apply (s : σ) (r : Bytes) : unread s r = .ok r s r := rfl
@[simp] theorem next_apply (n : Nat) (s : σ) (r : Bytes) : next n s r = .ok (r.take n) s (r.drop n) := rfl
@[simp] theorem upd_apply (f : σ → σ) (s : σ) (r : Bytes) : upd f s r = .ok () (f s) r := rfl
@[simp] theorem get_apply (s : σ) (r : Bytes) : get s r = .ok s s r := rfl
@[simp] theorem fail_apply (e : Err) (s : σ) (r : Bytes) : (fail e : Dec σ α) s r = .err e s := rfl
@[simp] theorem when_true (m : Dec σ Unit) : when true m = m := rfl
@[simp] theorem when_false (m : Dec σ Unit) : when false m = pure () := rfl
@[simp] theorem when_false_apply (m : Dec σ Unit) (s : σ) (r : Bytes) :
    when false m s r = .ok () s r := rfl

end Dec

/-- Outcome of a `Decode([]byte) error` method: the receiver after the call, plus the error if any. -/
inductive Out (σ : Type) where
  | ok (s : σ)
  | err (e : Err) (s : σ)
  | panic
  | diverge
deriving DecidableEq, Repr

/-- run a decoder body on a fresh reader over `content`; unread bytes are dropped. -/
def Dec.run {σ : Type} (m : Dec σ Unit) (s : σ) (content : Bytes) : Out σ :=
  match m s content with
  | .ok _ s' _ => .ok s'
  | .err e s' => .err e s'
  | .panic => .panic
  | .diverge => .diverge

theorem Dec.run_of_ok {σ : Type} {m : Dec σ Unit} {s s' : σ} {c r : Bytes} {u : Unit}
    (h : m s c = .ok u s' r) : Dec.run m s c = .ok s' := by simp [Dec.run, h]

/-! ### little-endian integers (encoding/binary) -/

/-- `binary.LittleEndian.PutUint16` / `binary.Write(buf, LittleEndian, uint16)`. -/
def le16 (x : UInt16) : Bytes := [UInt8.ofNat x.toNat, UInt8.ofNat (x.toNat / 256)]

/-- `binary.LittleEndian.PutUint32` / `binary.Write(buf, LittleEndian, uint32)`. -/
def le32 (x : UInt32) : Bytes :=
  [UInt8.ofNat x.toNat, UInt8.ofNat (x.toNat / 256), UInt8.ofNat (x.toNat / 65536),
   UInt8.ofNat (x.toNat / 16777216)]

/-- `binary.LittleEndian.Uint16(b)` for `len b >= 2` (all call sites pass buffers of length 2). -/
def u16 : Bytes → UInt16
  | b0 :: b1 :: _ => UInt16.ofNat (b0.toNat + 256 * b1.toNat)
  | _ => 0

/-- `binary.LittleEndian.Uint32(b)` for `len b >= 4` (all call sites pass buffers of length >= 4). -/
def u32 : Bytes → UInt32
  | b0 :: b1 :: b2 :: b3 :: _ =>
    UInt32.ofNat (b0.toNat + 256 * b1.toNat + 65536 * b2.toNat + 16777216 * b3.toNat)
  | _ => 0

/-- `binary.BigEndian.PutUint32`. -/
def be32 (x : UInt32) : Bytes := (le32 x).reverse

/-- `make([]byte, n)`. -/
def zeros (n : Nat) : Bytes := List.replicate n 0

/-- `s[a:b]` on a string of length at least `b`. -/
def sl (s : Bytes) (a b : Nat) : Bytes := (s.drop a).take (b - a)

/-! ### binary formatting and parsing of flag strings -/

/-- ASCII digit of a bit. -/
def dig (b : Bool) : UInt8 := if b then 49 else 48

/-- the one-character Go string of a bit: `"0"` or `"1"`. -/
def bitS (b : Bool) : Bytes := [dig b]

/-- binary digits of `n`, most significant first, no leading zeros (`"0"` for 0);
`fuel` bounds the number of digits. -/
def binDigits : Nat → Nat → Bytes
  | 0, _ => []
  | fuel + 1, n => if n < 2 then [dig (n == 1)] else binDigits fuel (n / 2) ++ [dig (n % 2 == 1)]

/-- `fmt.Sprintf("%0<w>b", n)` for an unsigned integer of at most 64 bits. -/
def fmtBin (w n : Nat) : Bytes :=
  let d := binDigits 64 n
  List.replicate (w - d.length) 48 ++ d

/-- loop of `strconv.ParseUint(s, 2, bits)`. -/
def parseLoop (maxVal : Nat) : Bytes → Nat → Nat × Option Err
  | [], n => (n, none)
  | c :: cs, n =>
    if c = 48 ∨ c = 49 then
      let n1 := 2 * n + (if c = 49 then 1 else 0)
      if n1 > maxVal then (maxVal, some .parseRange) else parseLoop maxVal cs n1
    else (0, some .parseSyntax)

/-- `strconv.ParseUint(s, 2, bits)`: value and error. -/
def parseUint2 (s : Bytes) (bits : Nat) : Nat × Option Err :=
  if s = [] then (0, some .parseSyntax) else parseLoop (2 ^ bits - 1) s 0

/-- `if flags, err = strconv.ParseUint(s, 2, 8); err != nil { return ... }` then `uint8(flags)`. -/
def parseFlags (s : Bytes) : Go UInt8 :=
  match parseUint2 s 8 with
  | (n, none) => .ok (UInt8.ofNat n)
  | (_, some e) => .err e

/-- `uint16(len(b))`. -/
def len16 (b : Bytes) : UInt16 := UInt16.ofNat b.length

/-- The `Length()` methods: `if recBytes, err := x.Encode(); err != nil { 0 } else { uint16(len(recBytes)) }`.
`none` stands for a panic inside Encode. -/
def lengthOf : Go Bytes → Go UInt16
  | .ok b => .ok (len16 b)
  | .err _ => .ok 0
  | .panic => .panic

end Egts

namespace Egts

/-- `for buf.Len() > 0 { body }` with at most `fuel` iterations (`diverge` when they do not suffice). -/
def Dec.loopN {σ : Type} (body : Dec σ Unit) : Nat → Dec σ Unit
  | 0 => fun s r => if r = [] then .ok () s r else .diverge
  | n + 1 => fun s r => if r = [] then .ok () s r else (body >>= fun _ => Dec.loopN body n) s r

/-- `for buf.Len() > 0 { body }`; the bound `length` suffices for bodies that consume input
(proved for every loop of the model, see `Verif/Lemmas/Total.lean`). -/
def Dec.whileUnread {σ : Type} (body : Dec σ Unit) : Dec σ Unit :=
  fun s r => Dec.loopN body r.length s r

/-- call of another decoding method on a local value: its result value, or its error. -/
def Dec.call {σ τ : Type} : Out τ → Dec σ τ
  | .ok t => fun s r => .ok t s r
  | .err e _ => fun s _ => .err e s
  | .panic => fun _ _ => .panic
  | .diverge => fun _ _ => .diverge

/-- apply a constructor to the receiver of an outcome. -/
def Out.map {σ τ : Type} (f : σ → τ) : Out σ → Out τ
  | .ok s => .ok (f s)
  | .err e s => .err e (f s)
  | .panic => .panic
  | .diverge => .diverge

/-- `if e.F == "1" { if e.G, err = buf.ReadByte(); err != nil { return ... } }`. -/
def Dec.optByte {σ : Type} (cond : σ → Bytes) (set : σ → UInt8 → σ) : Dec σ Unit := do
  let e ← Dec.get
  Dec.when (cond e == [49]) (Dec.readByteTo set)

/-- `if e.F == "1" { if _, err = buf.Read(p); err != nil { return ... }; e.G = conv(p) }`; returns
the buffer `p`, which the caller may reuse. -/
def Dec.optRead {σ τ : Type} (cond : σ → Bytes) (p : Bytes) (conv : Bytes → τ) (set : σ → τ → σ) :
    Dec σ Bytes := do
  let e ← Dec.get
  if cond e == [49] then do
    let t ← Dec.read p
    Dec.upd fun e => set e (conv t)
    pure t
  else pure p

/-- `binary.LittleEndian.Uint32(append(p, 0x00))` for a three-byte buffer. -/
def u24 (p : Bytes) : UInt32 := u32 (p ++ [0])

/-- number of nonzero bytes: bound on the nesting depth of record responses
(used as fuel; `Verif/Lemmas/Total.lean` proves it sufficient). -/
def nz (b : Bytes) : Nat := b.countP (· ≠ 0)

end Egts
