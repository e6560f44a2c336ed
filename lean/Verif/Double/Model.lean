import Verif.Event.Model

/-!
# Numbers of cJSON as IEEE 754 doubles

The functions of /repo hand 64-bit integers to `cJSON_CreateNumber` (event.c:296-297 and 408-412, relay_message.c:459, nip47.c:676, …) and
take `valuedouble` from what has been read (event.c:500). The other models leave open what becomes of numbers with more than 15 digits;
here it is written down: the conversion to `double`, `print_number` of cJSON 1.7 with `%1.15g` and `%1.17g`, and `strtod`. Like
`Verif/Json/Model.lean` this is part of the trusted base: no file of cJSON or of the C library is in /repo. The rounding is to nearest,
ties to even, in both directions, as glibc does it.
-/

namespace Nostr.Double
open Nostr Nostr.Json

/-- `p / q` rounded to an integer, ties to even. -/
def roundDiv (p q : Nat) : Nat :=
  if 2 * (p % q) < q ∨ 2 * (p % q) = q ∧ p / q % 2 = 0 then p / q else p / q + 1

/-- The double nearest to `p / q`, without its fraction (`(int64_t) d`): 53 binary digits are kept. -/
def nearest (p q : Nat) : Nat :=
  if p / q < 2 ^ 53 then
    let k := if p / q = 0 then 53 else 52 - (p / q).log2
    roundDiv (p * 2 ^ k) q / 2 ^ k
  else
    let e := (p / q).log2 - 52
    roundDiv p (q * 2 ^ e) * 2 ^ e

/-- `(double) n` of an integer; it is an integer again. -/
def ofInt (n : Int) : Int := if n < 0 then -(nearest n.natAbs 1 : Int) else nearest n.natAbs 1

/-- The integer `a` rounded to `p` significant decimal digits. -/
def roundSig (p a : Nat) : Nat :=
  let k := (Num.decNat a).length
  if k ≤ p then a else roundDiv a (10 ^ (k - p)) * 10 ^ (k - p)

/-- Without zeros at the end. -/
def strip (ds : Bytes) : Bytes := (ds.reverse.dropWhile fun c => c == 0x30).reverse

/-- `%1.<p>g` of a positive double that is an integer: with an exponent if there are more than `p` digits before the point. -/
def general (p a : Nat) : Bytes :=
  let ds := Num.decNat (roundSig p a)
  if ds.length ≤ p then ds
  else
    let t := strip ds
    t.take 1 ++ (if t.length > 1 then 0x2e :: t.drop 1 else []) ++ c!"e+" ++
      (if ds.length - 1 < 10 then 0x30 :: Num.decNat (ds.length - 1) else Num.decNat (ds.length - 1))

/-- `compare_double` of cJSON: equal up to `DBL_EPSILON` = 2^-52 times the larger one. -/
def close (a b : Nat) : Bool := decide ((a - b + (b - a)) * 2 ^ 52 ≤ max a b)

/-- `print_number` of cJSON for a double that is an integer and not an `int`: 15 digits if `sscanf` makes of them nearly the same number,
otherwise 17. -/
def format (d : Int) : Bytes :=
  let a := d.natAbs
  (if d < 0 then [0x2d] else []) ++
    if close (nearest (roundSig 15 a) 1) a then general 15 a else general 17 a

/-- `(int64_t) strtod(text)` for a text of number characters that is read as a whole: sign, digits, fraction, exponent. The conversion of
values outside the 64-bit range, which is undefined in C, is not modelled: the result is then outside the range as well. -/
def read (tok : Bytes) : Int :=
  let s1 := if tok.head? = some 0x2d ∨ tok.head? = some 0x2b then tok.tail else tok
  let ip := digits s1
  let s2 := s1.drop ip.length
  let fp := if s2.head? = some 0x2e then digits s2.tail else []
  let s3 := if s2.head? = some 0x2e then s2.tail.drop fp.length else s2
  let t := s3.tail
  let ed := digits (if t.head? = some 0x2d ∨ t.head? = some 0x2b then t.tail else t)
  let ex : Int := if s3.head? = some 0x65 ∨ s3.head? = some 0x45 then
      (if t.head? = some 0x2d then -(Num.natOf ed : Int) else Num.natOf ed) else 0
  let m := Num.natOf (ip ++ fp)
  let x := ex - fp.length
  let v := if 0 ≤ x then nearest (m * 10 ^ x.toNat) 1 else nearest m (10 ^ (-x).toNat)
  if tok.head? = some 0x2d then -(v : Int) else v

/-- A build with cJSON and doubles. -/
def build : Event.Build := .cjson ofInt format

/-- A platform with doubles. -/
def plat (lax0x : Bool) : Event.Plat := ⟨read, lax0x⟩

end Nostr.Double
