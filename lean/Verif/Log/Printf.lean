import Verif.Tac

/-!
# Formatted printing into a buffer

`lib/libc/src/printf.c`: `_vsnprintf` and everything it calls, with the
floating point conversions left out (`lib/libc/CMakeLists.txt:39` compiles
them out).  A buffer is a list of characters, an access past its end is the
outcome `outside`.
-/

namespace Verif.Log

/-- What running a piece of C leads to: a value, a failed `assert`, an access
outside of an array, or behaviour the C standard leaves undefined. -/
inductive Res (α : Type) where
  | ok (a : α)
  | assertion
  | outside
  | undef
  deriving DecidableEq, Repr

/-- sequencing -/
def Res.bind {α β : Type} : Res α → (α → Res β) → Res β
  | .ok a, f => f a
  | .assertion, _ => .assertion
  | .outside, _ => .outside
  | .undef, _ => .undef

instance : Monad Res where
  pure := .ok
  bind := Res.bind

@[simp] theorem Res.ok_bind {α β : Type} (a : α) (f : α → Res β) : (Res.ok a >>= f) = f a := rfl
@[simp] theorem Res.bind_ok {α β : Type} (a : α) (f : α → Res β) : Res.bind (.ok a) f = f a := rfl
@[simp] theorem Res.pure_eq {α : Type} (a : α) : (pure a : Res α) = .ok a := rfl
@[simp] theorem Res.outside_bind {α β : Type} (f : α → Res β) : (Res.outside >>= f) = .outside := rfl
@[simp] theorem Res.assertion_bind {α β : Type} (f : α → Res β) : (Res.assertion >>= f) = .assertion := rfl
@[simp] theorem Res.undef_bind {α β : Type} (f : α → Res β) : (Res.undef >>= f) = .undef := rfl

/-- an array of characters -/
abbrev Buf := List Char

/-- `b[i] = c` -/
def put (b : Buf) (i : Nat) (c : Char) : Res Buf :=
  if i < b.length then .ok (b.set i c) else .outside

/-! ## Conversions -/

/-- the flag bits, printf.c:117-129 -/
structure Flags where
  zeropad : Bool := false
  left : Bool := false
  plus : Bool := false
  space : Bool := false
  hash : Bool := false
  upper : Bool := false
  char : Bool := false
  short : Bool := false
  long : Bool := false
  longlong : Bool := false
  precision : Bool := false
  deriving DecidableEq, Repr

/-- an argument of the variable argument list: a machine word or a string.
Strings carry the characters before the terminating zero. -/
inductive Arg where
  | word (v : BitVec 64)
  | text (s : List Char)

/-- `PRINTF_NTOA_BUFFER_SIZE`, printf.c:63-65 -/
def NTOA_BUFFER_SIZE : Nat := 32

/-- one digit, printf.c:329-331 (and 361-363) -/
def digit (upper : Bool) (d : Nat) : Char :=
  if d < 10 then Char.ofNat ('0'.toNat + d)
  else Char.ofNat ((if upper then 'A'.toNat else 'a'.toNat) + d - 10)

/-- The digit loop of `_ntoa_long` and `_ntoa_long_long`, printf.c:328-333
(360-365): least significant digit first; `n` is the room left in `buf`. -/
def digits (upper : Bool) (base : Nat) : Nat → Nat → List Char
  | 0, _ => []
  | n + 1, v => digit upper (v % base) :: (if v / base ≠ 0 then digits upper base n (v / base) else [])

/-- a loop `while ((len < n) && (len < PRINTF_NTOA_BUFFER_SIZE)) buf[len++] = '0';`
of printf.c:269-274 -/
def zeros (buf : List Char) (n : Nat) : List Char :=
  buf ++ List.replicate (min n NTOA_BUFFER_SIZE - buf.length) '0'

/-- one guarded `if (len < PRINTF_NTOA_BUFFER_SIZE) buf[len++] = c;` of
printf.c:285-293 and 296-305 -/
def push (buf : List Char) (c : Char) : List Char :=
  if buf.length < NTOA_BUFFER_SIZE then buf ++ [c] else buf

/-- `_out_rev`, printf.c:234-258: the characters it outputs. -/
def outRev (buf : List Char) (width : Nat) (f : Flags) : List Char :=
  (if !f.left && !f.zeropad then List.replicate (width - buf.length) ' ' else []) ++ buf.reverse ++
    (if f.left then List.replicate (width - buf.length) ' ' else [])

/-- The hash branch of `_ntoa_format`, printf.c:277-293. -/
def hashed (buf : List Char) (base prec width : Nat) (f : Flags) : List Char :=
  if f.hash then
    let buf := if !f.precision && buf.length != 0 && (buf.length == prec || buf.length == width) then
        let b := buf.dropLast
        if b.length != 0 && base == 16 then b.dropLast else b
      else buf
    let buf := if base == 16 then push buf (if f.upper then 'X' else 'x')
      else if base == 2 then push buf 'b' else buf
    push buf '0'
  else buf

/-- The sign branch of `_ntoa_format`, printf.c:295-305. -/
def signed (buf : List Char) (negative : Bool) (f : Flags) : List Char :=
  if negative then push buf '-' else if f.plus then push buf '+' else if f.space then push buf ' ' else buf

/-- `_ntoa_format`, printf.c:262-308 -/
def ntoaFormat (buf : List Char) (negative : Bool) (base prec width : Nat) (f : Flags) : List Char :=
  let w := if !f.left && width != 0 && f.zeropad && (negative || f.plus || f.space) then width - 1 else width
  let buf := if !f.left then zeros buf prec else buf
  let buf := if !f.left && f.zeropad then zeros buf w else buf
  outRev (signed (hashed buf base prec w f) negative f) w f

/-- `_ntoa_long`, printf.c:313-339, and `_ntoa_long_long`, printf.c:343-372,
which are the same code on a type of the same width. -/
def ntoa (value : Nat) (negative : Bool) (base prec width : Nat) (f : Flags) : List Char :=
  let f := if value = 0 then { f with hash := false } else f
  let buf := if !f.precision || value ≠ 0 then digits f.upper base NTOA_BUFFER_SIZE value else []
  ntoaFormat buf negative base prec width f

/-- the flag loop, printf.c:708-731 -/
def parseFlags : List Char → Flags → Flags × List Char
  | '0' :: r, f => parseFlags r { f with zeropad := true }
  | '-' :: r, f => parseFlags r { f with left := true }
  | '+' :: r, f => parseFlags r { f with plus := true }
  | ' ' :: r, f => parseFlags r { f with space := true }
  | '#' :: r, f => parseFlags r { f with hash := true }
  | r, f => (f, r)

/-- `_is_digit`, printf.c:215-218 -/
def isDigit (c : Char) : Bool := '0' ≤ c && c ≤ '9'

/-- `_atoi`, printf.c:222-230: unsigned arithmetic modulo 2^32 -/
def atoi : List Char → Nat → Nat × List Char
  | c :: r, i => if isDigit c then atoi r ((i * 10 + (c.toNat - '0'.toNat)) % 2 ^ 32) else (i, c :: r)
  | [], i => (i, [])

/-- `va_arg` of an integer or pointer type -/
def vaWord : List Arg → Res (BitVec 64 × List Arg)
  | .word v :: r => .ok (v, r)
  | _ => .undef

/-- `va_arg(va, char *)` of a string -/
def vaText : List Arg → Res (List Char × List Arg)
  | .text s :: r => .ok (s, r)
  | _ => .undef

/-- the width field, printf.c:733-747.  Negating `INT_MIN` is undefined. -/
def parseWidth (f : Flags) (fmt : List Char) (va : List Arg) : Res (Flags × Nat × List Char × List Arg) :=
  match fmt with
  | [] => .ok (f, 0, [], va)
  | c :: r =>
    if isDigit c then .ok (f, (atoi fmt 0).1, (atoi fmt 0).2, va)
    else if c = '*' then do
      let (v, va) ← vaWord va
      let w := (v.setWidth 32).toInt
      if w = - 2 ^ 31 then .undef
      else if w < 0 then .ok ({ f with left := true }, w.natAbs, r, va)
      else .ok (f, w.natAbs, r, va)
    else .ok (f, 0, fmt, va)

/-- the precision field, printf.c:749-762 -/
def parsePrec (f : Flags) (fmt : List Char) (va : List Arg) : Res (Flags × Nat × List Char × List Arg) :=
  match fmt with
  | '.' :: r =>
    let f := { f with precision := true }
    match r with
    | [] => .ok (f, 0, [], va)
    | c :: r' =>
      if isDigit c then .ok (f, (atoi r 0).1, (atoi r 0).2, va)
      else if c = '*' then do
        let (v, va) ← vaWord va
        let p := (v.setWidth 32).toInt
        .ok (f, if p > 0 then p.natAbs else 0, r', va)
      else .ok (f, 0, r, va)
  | _ => .ok (f, 0, fmt, va)

/-- the length field, printf.c:764-798; `ptrdiff_t`, `intmax_t` and `size_t`
have the size of `long` -/
def parseLen (f : Flags) : List Char → Flags × List Char
  | 'l' :: 'l' :: r => ({ f with long := true, longlong := true }, r)
  | 'l' :: r => ({ f with long := true }, r)
  | 'h' :: 'h' :: r => ({ f with short := true, char := true }, r)
  | 'h' :: r => ({ f with short := true }, r)
  | 't' :: r => ({ f with long := true }, r)
  | 'j' :: r => ({ f with long := true }, r)
  | 'z' :: r => ({ f with long := true }, r)
  | r => (f, r)

/-- the base and the flags of an integer conversion, printf.c:809-836 -/
def baseOf (c : Char) : Nat := if c = 'x' ∨ c = 'X' then 16 else if c = 'o' then 8 else if c = 'b' then 2 else 10

/-- printf.c:818-836 -/
def intFlags (c : Char) (f : Flags) : Flags :=
  let f := if baseOf c = 10 then { f with hash := false } else f
  let f := if c = 'X' then { f with upper := true } else f
  let f := if c ≠ 'i' ∧ c ≠ 'd' then { f with plus := false, space := false } else f
  if f.precision then { f with zeropad := false } else f

/-- width in bits of the argument of an integer conversion, printf.c:841-868 -/
def argBits (f : Flags) : Nat :=
  if f.longlong || f.long then 64 else if f.char then 8 else if f.short then 16 else 32

/-- the integer conversions, printf.c:802-872.  `char` is unsigned on AArch64.
Negating the smallest `int` or `long` is undefined. -/
def convInt (c : Char) (f : Flags) (width prec : Nat) (v : BitVec 64) : Res (List Char) :=
  let f := intFlags c f
  let n := argBits f
  if (c = 'i' ∨ c = 'd') ∧ n ≠ 8 then
    let x := (v.setWidth n).toInt
    if 32 ≤ n ∧ x = - 2 ^ (n - 1) then .undef
    else .ok (ntoa x.natAbs (x < 0) (baseOf c) prec width f)
  else .ok (ntoa (v.setWidth n).toNat false (baseOf c) prec width f)

/-- the character conversion, printf.c:903-921 -/
def convChar (f : Flags) (width : Nat) (v : BitVec 64) : List Char :=
  let c := Char.ofNat (v.setWidth 8).toNat
  (if !f.left then List.replicate (width - 1) ' ' else []) ++ [c] ++
    (if f.left then List.replicate (width - 1) ' ' else [])

/-- The string conversion, printf.c:923-947.  With the flag `-` the first
padding loop is skipped, so `l` still holds the length in the second. -/
def convText (f : Flags) (width prec : Nat) (s : List Char) : List Char :=
  let out := if f.precision then s.take prec else s
  (if !f.left then List.replicate (width - out.length) ' ' else []) ++ out ++
    (if f.left then List.replicate (width - out.length) ' ' else [])

/-- the conversion specifier, printf.c:800-976.  At the end of the format the
code steps over the terminating zero (972-975): outcome `outside`. -/
def convSpec (f : Flags) (width prec : Nat) (fmt : List Char) (va : List Arg) :
    Res (List Char × List Char × List Arg) :=
  match fmt with
  | [] => .outside
  | c :: r =>
    if c ∈ ['d', 'i', 'u', 'x', 'X', 'o', 'b'] then do
      let (v, va) ← vaWord va
      let out ← convInt c f width prec v
      .ok (out, r, va)
    else if c = 'c' then do
      let (v, va) ← vaWord va
      .ok (convChar f width v, r, va)
    else if c = 's' then do
      let (s, va) ← vaText va
      .ok (convText f width prec s, r, va)
    else if c = 'p' then do
      let (v, va) ← vaWord va
      .ok (ntoa v.toNat false 16 prec 16 { f with zeropad := true, upper := true }, r, va)
    else .ok ([c], r, va)

/-- one conversion after the `%`, printf.c:703-976 -/
def conv (fmt : List Char) (va : List Arg) : Res (List Char × List Char × List Arg) := do
  let (f, fmt) := parseFlags fmt {}
  let (f, width, fmt, va) ← parseWidth f fmt va
  let (f, prec, fmt, va) ← parsePrec f fmt va
  let (f, fmt) := parseLen f fmt
  convSpec f width prec fmt va

/-- The loop of `_vsnprintf`, printf.c:696-977: the characters handed to
`out`, in order; every call of `out` uses the next index.  A round of the loop
consumes a character of the format, `fuel` counts the rounds. -/
def render : Nat → List Char → List Arg → Res (List Char)
  | _, [], _ => .ok []
  | 0, _ :: _, _ => .ok []
  | fuel + 1, c :: fmt, va =>
    if c ≠ '%' then do
      let out ← render fuel fmt va
      .ok (c :: out)
    else do
      let (o, fmt, va) ← conv fmt va
      let out ← render fuel fmt va
      .ok (o ++ out)

/-! ## Output -/

/-- `_out_buffer`, printf.c:146-153; `off` is where the buffer begins in `b` -/
def outBuffer (b : Buf) (off idx maxlen : Nat) (c : Char) : Res Buf :=
  if idx < maxlen then put b (off + idx) c else .ok b

/-- the calls of `out` for the characters of `text`, from index `idx` on -/
def outAll (off maxlen : Nat) : Buf → Nat → List Char → Res (Buf × Nat)
  | b, idx, [] => .ok (b, idx)
  | b, idx, c :: r => do
    let b ← outBuffer b off idx maxlen c
    outAll off maxlen b (idx + 1) r

/-- `snprintf_`, printf.c:1014-1023, through `_vsnprintf`, printf.c:685-984,
on the buffer at `off` in `b`: the new contents and the value returned.  The
subtraction in the termination (980) is modulo 2^64. -/
def snprintf (b : Buf) (off count : Nat) (format : String) (va : List Arg) : Res (Buf × Int) := do
  let text ← render format.toList.length format.toList va
  let (b, idx) ← outAll off count b 0 text
  let b ← outBuffer b off (if idx < count then idx else (count + (2 ^ 64 - 1)) % 2 ^ 64) count (Char.ofNat 0)
  .ok (b, (BitVec.ofNat 32 idx).toInt)

end Verif.Log
